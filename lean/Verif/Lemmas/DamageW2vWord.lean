import Verif.Lemmas.DamageW2v
import Verif.Lemmas.DamageFtWord
import Verif.Lemmas.W2vFile
import Verif.Lemmas.Utf8Lossy
/-! Replacing bytes of a word in a word2vec file. -/

namespace FF
open Fifu

private theorem upTo_unique {x y r s : Bytes} {c : UInt8} (hx : c ∉ x) (hy : c ∉ y)
    (h : x ++ c :: r = y ++ c :: s) : x = y ∧ r = s := by
  induction x generalizing y with
  | nil =>
    cases y with
    | nil => simpa using h
    | cons b y =>
      simp only [List.nil_append, List.cons_append, List.cons.injEq] at h
      exact absurd (by simp [h.1]) hy
  | cons a x ih =>
    cases y with
    | nil =>
      simp only [List.nil_append, List.cons_append, List.cons.injEq] at h
      exact absurd (by simp [h.1]) hx
    | cons b y =>
      simp only [List.cons_append, List.cons.injEq] at h
      simp only [List.mem_cons, not_or] at hx hy
      obtain ⟨h1, h2⟩ := ih hx.2 hy.2 h.2
      exact ⟨by rw [h.1, h1], h2⟩

theorem w2vKey_unique {lossy : Bool} {k : Bytes} {w w' : PyStr} (h : W2vKey lossy k w) (h' : W2vKey lossy k w') :
    w = w' := by
  obtain ⟨_, s, h1, h2⟩ := h
  obtain ⟨_, s', h1', h2'⟩ := h'
  have := (decodeLossy_iff.mpr h1).symm.trans (decodeLossy_iff.mpr h1')
  cases this
  exact (stripped_iff.mpr h2).symm.trans (stripped_iff.mpr h2')

private theorem floats_unique {v v' : List F32} {r r' : Bytes} (hl : v.length = v'.length)
    (h : f32sLE v ++ r = f32sLE v' ++ r') : v = v' ∧ r = r' := by
  have h2 := List.append_inj h (by rw [length_f32sLE, length_f32sLE, hl])
  exact ⟨by rw [← f32sOf_f32sLE v, h2.1, f32sOf_f32sLE], h2.2⟩

/-- How a row begins. -/
theorem w2vBody_head {lossy : Bool} {cols : Nat} {k r : Bytes} (hk : (32 : UInt8) ∉ k) {rs : List (PyStr × List F32)}
    (h : W2vBody lossy cols (k ++ 32 :: r) rs) (hn : rs ≠ []) :
    ∃ w v tl, rs = (w, v) :: tl ∧ W2vKey lossy k w ∧
      ((v.length = cols ∧ ∃ r', r = f32sLE v ++ r' ∧ W2vBody lossy cols r' tl) ∨
       (2 ≤ cols ∧ tl = [] ∧ ∃ x t, t.length < 4 ∧ r = f32sLE [x] ++ t ∧ v = List.replicate cols x)) := by
  generalize hb : k ++ 32 :: r = b at h
  cases h with
  | nil => exact absurd rfl hn
  | row hk' hv hrest =>
    obtain ⟨rfl, rfl⟩ := upTo_unique hk hk'.1 hb
    exact ⟨_, _, _, rfl, hk', Or.inl ⟨hv, _, rfl, hrest⟩⟩
  | one hk' h2 ht =>
    obtain ⟨rfl, rfl⟩ := upTo_unique hk hk'.1 hb
    exact ⟨_, _, _, rfl, hk', Or.inr ⟨h2, rfl, _, _, ht, rfl, rfl⟩⟩

theorem w2vBody_unique {lossy : Bool} {cols : Nat} {b : Bytes} {rs rs' : List (PyStr × List F32)}
    (h : W2vBody lossy cols b rs) (h' : W2vBody lossy cols b rs') (hn : rs'.length = rs.length) : rs' = rs := by
  induction h generalizing rs' with
  | nil => exact List.length_eq_zero_iff.mp hn
  | @row k w v rest rs hk hv _ ih =>
    obtain ⟨w', v', tl, rfl, hk', hc⟩ := w2vBody_head hk.1 h' (by rintro rfl; simp at hn)
    obtain rfl := w2vKey_unique hk hk'
    rcases hc with ⟨hv', r', hr, hb⟩ | ⟨h2, _, x, t, ht, hr, _⟩
    · obtain ⟨rfl, rfl⟩ := floats_unique (by rw [hv, hv']) hr
      rw [ih hb (by simpa using hn)]
    · have := congrArg List.length hr
      simp only [List.length_append, length_f32sLE, hv, List.length_singleton] at this
      omega
  | @one k w x t hk h2 ht =>
    obtain ⟨w', v', tl, rfl, hk', hc⟩ := w2vBody_head hk.1 h' (by rintro rfl; simp at hn)
    obtain rfl := w2vKey_unique hk hk'
    rcases hc with ⟨hv', r', hr, hb⟩ | ⟨_, rfl, x', t', ht', hr, rfl⟩
    · have := congrArg List.length hr
      simp only [List.length_append, length_f32sLE, hv', List.length_singleton] at this
      omega
    · obtain ⟨hx, _⟩ := floats_unique (v := [x]) (v' := [x']) rfl hr
      cases hx
      rfl

/-- A reader that fails wherever these bytes are. -/
theorem FailsWith.at {α : Type} {m : Rd α} {enc : Bytes} {err : PyErr} (h : ∀ pre, FailsWith m pre enc err)
    (hne : enc ≠ []) {s : RFile} (hs : s.data.drop s.pos = enc) : m s = .error err := by
  obtain ⟨data, pos⟩ := s
  simp only at hs
  have hle : pos ≤ data.length := by
    by_contra hlt
    exact hne (by rw [← hs]; exact List.drop_eq_nil_of_le (by omega))
  have := h (data.take pos) []
  rw [← hs, List.append_nil, List.take_append_drop, List.length_take, Nat.min_eq_left hle] at this
  exact this

/-- A word that cannot be read. -/
private theorem w2vRows_bad {K : Type} [Codec K] {lossy : Bool} {cols n : Nat} {k B : Bytes}
    (hk : (32 : UInt8) ∉ k) (hd : ¬ ∃ s, DecodesTo lossy k s) (pre : Bytes) :
    FailsWith (w2vRows (K := K) lossy cols (n + 1)) pre (k ++ 32 :: B) .unicodeDecodeError := by
  rw [w2vRows]
  have := FailsWith.bind_last (readDelim_parses hk pre)
    (f := fun bs => do
      let word ← Rd.lift (decodeLossy lossy bs)
      let array ← fromFileF32 cols
      let row ← Rd.lift (assignRow cols (array.map (Codec.ofBits (K := K))))
      let rest ← w2vRows lossy cols n
      return (strip word, row) :: rest)
    (FailsWith.bind_left (FailsWith.lift _ (decodeLossy_bad hd)))
  exact (this.append B).congr (by simp)

/-- The words of a file. -/
theorem w2vBody_word (K : Type) [Codec K] {lossy : Bool} {cols : Nat} (hcols : 4 * cols < maxSize) {body : Bytes}
    {rs : List (PyStr × List F32)} (h : W2vBody lossy cols body rs) :
    ∀ (i : Nat) (w : PyStr) (v : List F32), rs[i]? = some (w, v) →
    ∃ A k B, body = A ++ (k ++ 32 :: B) ∧ W2vKey lossy k w ∧ ∀ k', (32 : UInt8) ∉ k' →
      (∀ rs', rs'.length = rs.length →
        (W2vBody lossy cols (A ++ (k' ++ 32 :: B)) rs' ↔ ∃ w', W2vKey lossy k' w' ∧ rs' = rs.set i (w', v))) ∧
      ((¬ ∃ s, DecodesTo lossy k' s) → ∀ pre,
        FailsWith (w2vRows (K := K) lossy cols rs.length) pre (A ++ (k' ++ 32 :: B)) .unicodeDecodeError) := by
  induction h with
  | nil => intro i w v hi; simp at hi
  | @row k w0 v0 rest rs hk hv hrest ih =>
    intro i w v hi
    cases i with
    | zero =>
      simp only [List.getElem?_cons_zero, Option.some.injEq, Prod.mk.injEq] at hi
      obtain ⟨rfl, rfl⟩ := hi
      refine ⟨[], k, f32sLE v0 ++ rest, rfl, hk, fun k' hk' => ⟨fun rs' hn => ⟨fun h => ?_, ?_⟩,
        fun hd pre => w2vRows_bad hk' hd pre⟩⟩
      · obtain ⟨w', v', tl, rfl, hkw, hc⟩ := w2vBody_head hk' h (by rintro rfl; simp at hn)
        refine ⟨w', hkw, ?_⟩
        have := w2vBody_unique (W2vBody.row hkw hv hrest) h hn
        rw [this]
        rfl
      · rintro ⟨w', hkw, rfl⟩
        exact .row hkw hv hrest
    | succ i =>
      simp only [List.getElem?_cons_succ] at hi
      obtain ⟨A, k1, B, h1, h2, h3⟩ := ih i w v hi
      refine ⟨k ++ 32 :: (f32sLE v0 ++ A), k1, B, by rw [h1]; simp, h2, fun k' hk' => ?_⟩
      have hsh : k ++ 32 :: (f32sLE v0 ++ A) ++ (k' ++ 32 :: B) =
          k ++ 32 :: (f32sLE v0 ++ (A ++ (k' ++ 32 :: B))) := by simp
      rw [hsh]
      refine ⟨fun rs' hn => ?_, fun hd pre => ?_⟩
      rotate_left
      · obtain ⟨s0, hs0, _⟩ := hk.2
        rw [List.length_cons, w2vRows]
        refine (FailsWith.bind (readDelim_parses hk.1 pre) (FailsWith.bind_nil
          (Parses.lift _ (decodeLossy_iff.mpr hs0)) (FailsWith.bind (fromFileF32_parses v0 _ cols hv hcols)
            (FailsWith.bind_nil (Parses.lift _ (assignRow_ok (by rw [List.length_map, hv])))
              (FailsWith.bind_left ((h3 k' hk').2 hd _)))))).congr (by simp)
      constructor
      · intro h
        obtain ⟨w', v', tl, rfl, hkw, hc⟩ := w2vBody_head hk.1 h (by rintro rfl; simp at hn)
        obtain rfl := w2vKey_unique hk hkw
        rcases hc with ⟨hv', r', hr, hb⟩ | ⟨_, rfl, _⟩
        · obtain ⟨rfl, rfl⟩ := floats_unique (by rw [hv, hv']) hr
          obtain ⟨w', q1, q2⟩ := ((h3 k' hk').1 tl (by simpa using hn)).mp hb
          exact ⟨w', q1, by rw [q2]; rfl⟩
        · have : i < rs.length := (List.getElem?_eq_some_iff.mp hi).1
          simp only [List.length_cons, List.length_nil] at hn
          omega
      · rintro ⟨w', q1, rfl⟩
        exact .row hk hv (((h3 k' hk').1 (rs.set i (w', v)) (by simp)).mpr ⟨w', q1, rfl⟩)
  | @one k w0 x t hk h2 ht =>
    intro i w v hi
    cases i with
    | succ i => simp at hi
    | zero =>
      simp only [List.getElem?_cons_zero, Option.some.injEq, Prod.mk.injEq] at hi
      obtain ⟨rfl, rfl⟩ := hi
      refine ⟨[], k, f32sLE [x] ++ t, rfl, hk, fun k' hk' => ⟨fun rs' hn => ⟨fun h => ?_, ?_⟩,
        fun hd pre => w2vRows_bad hk' hd pre⟩⟩
      · obtain ⟨w', v', tl, rfl, hkw, hc⟩ := w2vBody_head hk' h (by rintro rfl; simp at hn)
        refine ⟨w', hkw, ?_⟩
        have := w2vBody_unique (W2vBody.one hkw h2 ht) h hn
        rw [this]
        rfl
      · rintro ⟨w', hkw, rfl⟩
        exact .one hkw h2 ht

/-- The header of a file is determined by its bytes. -/
theorem w2vHeader_unique {line line' : PyStr} {body body' bs : Bytes} (hl : ∀ c ∈ line, c.val < 128 ∧ c.val ≠ 10)
    (hl' : ∀ c ∈ line', c.val < 128 ∧ c.val ≠ 10) (h : bs = utf8 line ++ 10 :: body)
    (h' : bs = utf8 line' ++ 10 :: body' ∨ bs = utf8 line' ∧ body' = []) : utf8 line' = utf8 line ∧ body' = body := by
  have hno : ∀ l : PyStr, (∀ c ∈ l, c.val < 128 ∧ c.val ≠ 10) → (10 : UInt8) ∉ utf8 l := by
    intro l hl
    induction l with
    | nil => simp [utf8]
    | cons c l ih =>
      have hc := hl c (by simp)
      intro hm
      have : utf8 (c :: l) = encCode c ++ utf8 l := rfl
      rw [this, List.mem_append] at hm
      rcases hm with hm | hm
      · unfold encCode at hm
        simp only at hm
        rw [if_pos hc.1, List.mem_singleton] at hm
        have := congrArg UInt8.toNat hm
        rw [u8_toNat_ofNat (by omega)] at this
        exact hc.2 this.symm
      · exact ih (fun c hc => hl c (by simp [hc])) hm
  rcases h' with h' | ⟨h', _⟩
  · obtain ⟨h1, h2⟩ := upTo_unique (hno _ hl') (hno _ hl) (h'.symm.trans h)
    exact ⟨h1, h2⟩
  · exfalso
    have := hno _ hl'
    rw [← h', h] at this
    simp at this

end FF
