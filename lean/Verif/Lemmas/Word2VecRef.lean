import Verif.Spec.Word2VecRef
import Verif.Props.C60
import Verif.Lemmas.Word2VecCut
import Verif.Lemmas.FloatRead
import Verif.Lemmas.Grow
/-!
# Files of word2vec
-/

namespace FF

namespace W2v

theorem digits_utf8 (n : Nat) : ∀ b ∈ utf8 (decimal n), isDigit b = true := by
  intro b hb
  rw [utf8_ascii fun c hc => by have := decimal_digits n c hc; omega] at hb
  obtain ⟨c, hc, rfl⟩ := List.mem_map.mp hb
  have := decimal_digits n c hc
  unfold isDigit
  rw [u8_toNat_ofNat (by omega), Bool.and_eq_true, decide_eq_true_iff, decide_eq_true_iff]
  exact this

theorem foldl_decimal (s : PyStr) (h : AllDigits s) (a : Nat) :
    (s.map fun c => UInt8.ofNat c.val).foldl (fun a d => 10 * a + (d.toNat - 48)) a =
      s.foldl (fun n c => n * 10 + (c.val - 48)) a := by
  induction s generalizing a with
  | nil => rfl
  | cons c s ih =>
    have := h c (by simp)
    rw [List.map_cons, List.foldl_cons, List.foldl_cons, ih (fun x hx => h x (by simp [hx])),
      u8_toNat_ofNat (by omega), Nat.mul_comm]

theorem takeWhile_all {α : Type} {p : α → Bool} {xs : List α} (h : ∀ x ∈ xs, p x = true) {y : α} (hy : p y = false)
    (ys : List α) : (xs ++ y :: ys).takeWhile p = xs ∧ (xs ++ y :: ys).dropWhile p = y :: ys := by
  induction xs with
  | nil => simp [hy]
  | cons x xs ih =>
    have := ih fun z hz => h z (by simp [hz])
    simp [h x (by simp), this.1, this.2]

theorem takeWhile_self {α : Type} {p : α → Bool} {xs : List α} (h : ∀ x ∈ xs, p x = true) : xs.takeWhile p = xs := by
  induction xs with
  | nil => rfl
  | cons x xs ih => rw [List.takeWhile_cons, h x (by simp), if_pos rfl, ih fun z hz => h z (by simp [hz])]

/-- Blanks, a number and something that is no digit -/
theorem scan_decimal {n : Nat} (hn : n < 2 ^ 63) {pre : Bytes} (hp : ∀ b ∈ pre, isBlank b = true) {y : UInt8}
    (hy : isDigit y = false) (ys : Bytes) : scan (pre ++ (utf8 (decimal n) ++ y :: ys)) = some (n, y :: ys) := by
  have hne : utf8 (decimal n) ≠ [] := by
    intro h
    rw [utf8_ascii fun c hc => by have := decimal_digits n c hc; omega, List.map_eq_nil_iff] at h
    exact decimal_ne_nil n h
  obtain ⟨b, bs, hb⟩ : ∃ b bs, utf8 (decimal n) = b :: bs := by
    cases h : utf8 (decimal n) with
    | nil => exact absurd h hne
    | cons b bs => exact ⟨b, bs, rfl⟩
  have hbb : isBlank b = false := by
    have := digits_utf8 n b (by rw [hb]; simp)
    unfold isDigit at this
    rw [Bool.and_eq_true, decide_eq_true_iff, decide_eq_true_iff] at this
    unfold isBlank
    simp only [Bool.or_eq_false_iff, Bool.and_eq_false_iff, decide_eq_false_iff_not, beq_eq_false_iff_ne]
    omega
  have e1 : (pre ++ (utf8 (decimal n) ++ y :: ys)).dropWhile isBlank = utf8 (decimal n) ++ y :: ys := by
    rw [hb]
    exact (takeWhile_all hp hbb _).2
  have e2 := takeWhile_all (digits_utf8 n) hy ys
  have e3 : (utf8 (decimal n)).foldl (fun a d => 10 * a + (d.toNat - 48)) 0 = n := by
    rw [utf8_ascii fun c hc => by have := decimal_digits n c hc; omega, foldl_decimal _ (decimal_digits n)]
    exact digitsVal_decimal n
  unfold scan
  simp only [e1, e2.1, e2.2, e3]
  rw [if_neg (by rintro (h | h); exacts [hne h, absurd h (by omega)])]

theorem word_of {pre w : Bytes} (hp : ∀ b ∈ pre, b = 10) (hw : Holds w) (r : Bytes) :
    word (pre ++ (w ++ 32 :: r)) = (w, r) := by
  have h := takeWhile_all (p := fun b : UInt8 => b != 32) (xs := pre ++ w) (y := 32) (by
    intro b hb
    rcases List.mem_append.mp hb with hb | hb
    · rw [hp b hb]; decide
    · simpa using (hw.2 b hb).2.2) (by decide) r
  rw [List.append_assoc] at h
  unfold word
  rw [h.1, h.2, List.filter_append]
  have h1 : pre.filter (· != 10) = [] := by
    rw [List.filter_eq_nil_iff]
    intro b hb
    rw [hp b hb]
    decide
  have h2 : w.filter (· != 10) = w := by
    rw [List.filter_eq_self]
    intro b hb
    simpa using (hw.2 b hb).2.1
  rw [h1, h2]
  rfl

theorem rows_of (cols : Nat) (rows : List (Bytes × List F32)) (hw : ∀ p ∈ rows, Holds p.1)
    (hl : ∀ p ∈ rows, p.2.length = cols) (pre : Bytes) (hp : ∀ b ∈ pre, b = 10) :
    Rows cols rows.length (pre ++ rows.flatMap fun p => p.1 ++ 32 :: f32sLE p.2 ++ [10]) rows := by
  induction rows generalizing pre with
  | nil => exact .nil _
  | cons p rows ih =>
    have h1 := hw p (by simp)
    have e : (pre ++ (p :: rows).flatMap fun p => p.1 ++ 32 :: f32sLE p.2 ++ [10]) =
        pre ++ (p.1 ++ 32 :: (f32sLE p.2 ++ ([10] ++ rows.flatMap fun p => p.1 ++ 32 :: f32sLE p.2 ++ [10]))) := by
      simp [List.flatMap_cons, List.append_assoc]
    have e2 := word_of hp h1 (f32sLE p.2 ++ ([10] ++ rows.flatMap fun p => p.1 ++ 32 :: f32sLE p.2 ++ [10]))
    rw [← e] at e2
    have h3 := ih (fun q hq => hw q (by simp [hq])) (fun q hq => hl q (by simp [hq])) [10] (by simp)
    have h4 := Rows.row (cols := cols) (bs := pre ++ (p :: rows).flatMap fun p => p.1 ++ 32 :: f32sLE p.2 ++ [10])
      (v := p.2) (by rw [e2]; exact h1.1) (hl p (by simp)) (by rw [e2]) h3
    have e5 : p.1.takeWhile (· != 0) = p.1 := takeWhile_self fun b hb => by simpa using (h1.2 b hb).1
    rw [e2, e5] at h4
    exact h4

theorem reads_file (cols : Nat) (rows : List (Bytes × List F32)) (hw : ∀ p ∈ rows, Holds p.1)
    (hl : ∀ p ∈ rows, p.2.length = cols) (hn : rows.length < 2 ^ 63) (hc : cols < 2 ^ 63) :
    Reads (file cols rows) cols rows := by
  refine ⟨32 :: (utf8 (decimal cols) ++ 10 ::
      rows.flatMap fun p : Bytes × List F32 => p.1 ++ 32 :: f32sLE p.2 ++ [10]),
    10 :: rows.flatMap fun p : Bytes × List F32 => p.1 ++ 32 :: f32sLE p.2 ++ [10], ?_, ?_,
    rows_of cols rows hw hl [10] (by simp)⟩
  · unfold file
    rw [List.append_assoc, List.cons_append]
    exact scan_decimal hn (pre := []) (by simp) (y := 32) (by decide) _
  · exact scan_decimal hc (pre := [32]) (by simp [isBlank]) (y := 10) (by decide) _

theorem f32sLE_append_inj {v v' : List F32} {r r' : Bytes} (hl : v.length = v'.length)
    (h : f32sLE v ++ r = f32sLE v' ++ r') : v = v' ∧ r = r' := by
  have h2 := List.append_inj h (by rw [length_f32sLE, length_f32sLE, hl])
  exact ⟨by rw [← f32sOf_f32sLE v, h2.1, f32sOf_f32sLE], h2.2⟩

theorem rows_unique {cols n : Nat} {bs : Bytes} {rs rs' : List (Bytes × List F32)} (h : Rows cols n bs rs)
    (h' : Rows cols n bs rs') : rs = rs' := by
  induction h generalizing rs' with
  | nil => cases h'; rfl
  | row h1 h2 h3 _ ih =>
    cases h' with
    | row g1 g2 g3 g4 =>
      obtain ⟨rfl, rfl⟩ := f32sLE_append_inj (h2.trans g2.symm) (h3.symm.trans g3)
      rw [ih g4]

theorem reads_unique {cols cols' : Nat} {bs : Bytes} {rs rs' : List (Bytes × List F32)} (h : Reads bs cols rs)
    (h' : Reads bs cols' rs') : cols = cols' ∧ rs = rs' := by
  obtain ⟨r, s, h1, h2, h3⟩ := h
  obtain ⟨r', s', g1, g2, g3⟩ := h'
  rw [h1] at g1
  obtain ⟨e1, e2⟩ := Prod.mk.inj (Option.some.inj g1)
  subst e2
  rw [h2] at g2
  obtain ⟨e3, e4⟩ := Prod.mk.inj (Option.some.inj g2)
  subst e3 e4
  rw [← e1] at g3
  exact ⟨rfl, rows_unique h3 g3⟩

theorem file_eq (cols : Nat) (rows : List (PyStr × List F32)) :
    w2vFile cols rows = file cols (rows.map fun p => (utf8 p.1, p.2)) := by
  unfold w2vFile file
  rw [List.length_map, utf8_append, utf8_append, utf8_append, List.flatMap_map]
  simp only [List.append_assoc]
  rfl

end W2v

section
variable {K : Type} [NumOps K] [Codec K]

theorem stripped_cons {c : Code} (hc : isSpace c = true) {w w' : PyStr} (h : Stripped w w') :
    Stripped (c :: w) w' := by
  obtain ⟨a, b, rfl, h1, h2, h3⟩ := h
  refine ⟨c :: a, b, rfl, ?_, h2, h3⟩
  intro x hx
  rcases List.mem_cons.mp hx with rfl | hx
  · exact hc
  · exact h1 x hx

theorem w2vBody_file (lossy : Bool) (cols : Nat) {rows : List (PyStr × List F32)} {ws : List PyStr}
    (ht : ∀ p ∈ rows, ∀ c ∈ p.1, c.val ≠ 32) (hsur : ∀ p ∈ rows, p.1.any isSurrogate = false)
    (hl : ∀ p ∈ rows, p.2.length = cols) (hst : List.Forall₂ (fun p w => Stripped p.1 w) rows ws) (pre : PyStr)
    (hp : pre = [] ∨ pre = [10]) :
    W2vBody lossy cols (utf8 pre ++ rows.flatMap fun p => utf8 p.1 ++ [32] ++ f32sLE p.2 ++ [10])
      (ws.zip (rows.map Prod.snd)) := by
  induction hst generalizing pre with
  | nil => exact .nil _
  | @cons p w rows ws h1 h2 ih =>
    have e : (utf8 pre ++ (p :: rows).flatMap fun p => utf8 p.1 ++ [32] ++ f32sLE p.2 ++ [10]) =
        utf8 (pre ++ p.1) ++ 32 :: (f32sLE p.2 ++ (utf8 [10] ++
          rows.flatMap fun p => utf8 p.1 ++ [32] ++ f32sLE p.2 ++ [10])) := by
      have : utf8 [10] = [10] := by decide
      rw [this, utf8_append]
      simp [List.flatMap_cons, List.append_assoc]
    rw [e, List.map_cons, List.zip_cons_cons]
    refine .row ⟨?_, pre ++ p.1, ?_, ?_⟩ (hl p (by simp)) (ih (fun q hq => ht q (by simp [hq]))
      (fun q hq => hsur q (by simp [hq])) (fun q hq => hl q (by simp [hq])) [10] (.inr rfl))
    · intro h32
      obtain ⟨c, hc, hv⟩ := mem_utf8 h32 (by decide)
      rcases List.mem_append.mp hc with hc | hc
      · rcases hp with rfl | rfl
        · cases hc
        · rw [List.mem_singleton] at hc
          subst hc
          exact absurd hv (by decide)
      · exact ht p (by simp) c hc hv
    · refine decodeLossy_iff.mp (decodeLossy_utf8 lossy ?_)
      rw [List.any_append, hsur p (by simp), Bool.or_false]
      rcases hp with rfl | rfl <;> decide
    · rcases hp with rfl | rfl
      · exact h1
      · exact stripped_cons (by decide) h1

theorem w2vHeader_file (cols : Nat) (rows : List (PyStr × List F32)) :
    W2vHeader (w2vFile cols rows) (rows.length : Int) (cols : Int)
      (rows.flatMap fun p => utf8 p.1 ++ [32] ++ f32sLE p.2 ++ [10]) := by
  refine ⟨decimal rows.length ++ [32] ++ decimal cols, fun c hc => ?_, dimsAre_decimal _ _, .inl ?_⟩
  · have := dims_ascii _ _ c hc
    exact ⟨this.1, this.2.1⟩
  · unfold w2vFile
    rw [utf8_append _ [10]]
    have : utf8 [10] = [10] := by decide
    rw [this]
    simp

theorem vocabNew_dup {ws : List PyStr} (h : ¬ ws.Nodup) (sub : Option Indexer) :
    Vocab.new ws sub = .error .assertionError := by
  unfold Vocab.new
  rw [validateItems_error h]
  rfl

/-- Words that are the same without the whitespace at their ends -/
theorem loadWord2vec_dup {lossy : Bool} {bs body : Bytes} {cols : Nat} {rs : List (PyStr × List F32)}
    (hh : W2vHeader bs (rs.length : Int) (cols : Int) body) (hb : W2vBody lossy cols body rs)
    (hn : ¬ (rs.map Prod.fst).Nodup) (hs : ShapeOk rs.length cols) :
    Rd.run (loadWord2vec (K := K) lossy) bs = .error .assertionError := by
  obtain ⟨l, s1, header, h1, h2, h3, h4⟩ := w2vHeader_to hh
  obtain ⟨s2, h5⟩ := w2vRows_of_body (K := K) hs.cols hb h4
  have : loadWord2vec (K := K) lossy ⟨bs, 0⟩ = .error .assertionError := by
    unfold loadWord2vec
    rw [rd_bind_ok h1, rd_bind_ok (by rw [h2]; exact rd_lift_ok _ _),
      rd_bind_ok (by rw [h3]; exact rd_lift_ok _ _),
      rd_bind_ok (by rw [zerosShape_ok hs]; exact rd_lift_ok _ _), rd_bind_ok h5]
    dsimp only
    have hw : ((rs.map fun q => (q.1, q.2.map (Codec.ofBits (K := K)))).map Prod.fst) =
        rs.map Prod.fst := by rw [List.map_map]; rfl
    rw [hw, vocabNew_dup hn]
    rfl
  unfold Rd.run
  rw [this]

end

end FF
