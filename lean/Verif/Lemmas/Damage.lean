import Verif.Lemmas.FfFile
import Verif.Spec.Damage
/-! Replacing bytes of a file. -/

namespace FF
open Fifu

/-! ### Flattened arrays -/

theorem flatten_modify_set {K : Type} (c : Nat) (x : K) (j : Nat) :
    ∀ (rows : List (List K)), (∀ r ∈ rows, r.length = c) → ∀ i, i < rows.length → j < c →
    (rows.modify i fun r => r.set j x).flatten = rows.flatten.set (i * c + j) x := by
  intro rows
  induction rows with
  | nil => intro _ i hi; simp at hi
  | cons r rows ih =>
    intro h i hi hj
    have hr := h r (by simp)
    cases i with
    | zero =>
      simp only [List.modify_zero_cons, List.flatten_cons, Nat.zero_mul, Nat.zero_add]
      rw [List.set_append_left _ _ (by omega)]
    | succ i =>
      simp only [List.modify_succ_cons, List.flatten_cons]
      rw [ih (fun r' hr' => h r' (by simp [hr'])) i (by simpa using hi) hj,
        List.set_append_right _ _ (by rw [hr, Nat.succ_mul]; omega)]
      congr 2
      rw [hr, Nat.succ_mul]; omega

theorem modify_set_shape {K : Type} {c : Nat} {rows : List (List K)} (h : ∀ r ∈ rows, r.length = c)
    (i j : Nat) (x : K) : ∀ r ∈ rows.modify i fun r => r.set j x, r.length = c := by
  intro r hr
  obtain ⟨n, hn, rfl⟩ := List.mem_iff_getElem.mp hr
  rw [List.getElem_modify]
  split
  · rw [List.length_set]; exact h _ (List.getElem_mem _)
  · exact h _ (List.getElem_mem _)

theorem map_flatten_modify {K : Type} (sub cents i j k : Nat) (x : K) (qs : List (List (List K)))
    (h : ∀ m ∈ qs, ∀ r ∈ m, r.length = sub) (hc : ∀ m ∈ qs, m.length = cents) (hj : j < cents) (hk : k < sub) :
    (qs.modify i fun m => m.modify j fun r => r.set k x).map List.flatten =
      (qs.map List.flatten).modify i fun r => r.set (j * sub + k) x := by
  apply List.ext_getElem
  · simp
  · intro n h1 h2
    simp only [List.getElem_map, List.getElem_modify]
    simp only [List.length_map, List.length_modify] at h1
    split
    · exact flatten_modify_set sub x k _ (h _ (List.getElem_mem h1)) j
        (by rw [hc _ (List.getElem_mem h1)]; exact hj) hk
    · rfl

/-! ### Bytes at positions -/

theorem hasAt_iff_get {bs enc : Bytes} {p : Nat} :
    HasAt bs p enc ↔ ∀ i (h : i < enc.length), bs[p + i]? = some enc[i] := by
  unfold HasAt
  rw [List.prefix_iff_getElem?]
  simp only [List.getElem?_drop]

theorem HasAt.frame {bs bs' enc : Bytes} {p : Nat} (h : HasAt bs p enc)
    (ha : ∀ i, p ≤ i → i < p + enc.length → bs'[i]? = bs[i]?) : HasAt bs' p enc := by
  rw [hasAt_iff_get] at h ⊢
  intro i hi
  rw [ha (p + i) (by omega) (by omega)]
  exact h i hi

/-- Equal below `n`. -/
def EqBelow (bs bs' : Bytes) (n : Nat) : Prop := ∀ i, i < n → bs'[i]? = bs[i]?

theorem EqBelow.hasAt {bs bs' enc : Bytes} {p n : Nat} (hb : EqBelow bs bs' n) (h : HasAt bs p enc)
    (hn : p + enc.length ≤ n) : HasAt bs' p enc :=
  HasAt.frame h fun i _ hi => hb i (by omega)

theorem EqBelow.mono {bs bs' : Bytes} {m n : Nat} (hb : EqBelow bs bs' n) (h : m ≤ n) : EqBelow bs bs' m :=
  fun i hi => hb i (by omega)

@[simp] theorem length_uint (w n : Nat) : (uint w n).length = w := by simp [uint]

@[simp] theorem length_floats (xs : List F32) : (floats xs).length = 4 * xs.length := by
  rw [floats_eq, length_f32sLE]

theorem length_flatMap_uint4 (ids : List Nat) : (ids.flatMap (uint 4)).length = 4 * ids.length := by
  induction ids with
  | nil => rfl
  | cons i ids ih => simp only [List.flatMap_cons, List.length_append, ih, length_uint, List.length_cons]; omega

theorem EqBelow.head {bs bs' : Bytes} {p id n : Nat} (hb : EqBelow bs bs' n) (h : Head bs p id)
    (hn : p + 12 ≤ n) : Head bs' p id := by
  obtain ⟨len, h1, h2⟩ := h
  exact ⟨len, h1, hb.hasAt h2 (by simp; omega)⟩

theorem EqBelow.header {bs bs' : Bytes} {p n : Nat} (hb : EqBelow bs bs' n) (h : HeaderAt bs p)
    (hn : p ≤ n) : HeaderAt bs' p := by
  obtain ⟨ids, h1, h2, h3, h4, h5⟩ := h
  refine ⟨ids, h1, h2, h3, hb.hasAt h4 ?_, h5⟩
  have := length_flatMap_uint4 ids
  simp only [List.length_append, length_uint, this, List.length_cons, List.length_nil]
  omega

theorem metaAt_le {T : Toml} {bs : Bytes} {p q : Nat} {md : Option Meta} (h : MetaAt T bs p md q) : p ≤ q := by
  cases md with
  | none => have : q = p := h; omega
  | some m => obtain ⟨_, _, _, _, h⟩ := h; omega

theorem EqBelow.meta {T : Toml} {bs bs' : Bytes} {p q n : Nat} {md : Option Meta} (hb : EqBelow bs bs' n)
    (h : MetaAt T bs p md q) (hn : q ≤ n) : MetaAt T bs' p md q := by
  cases md with
  | none => exact h
  | some m =>
    obtain ⟨text, h1, h2, h3, h4⟩ := h
    exact ⟨text, h1, h2, hb.hasAt h3 (by simp; omega), h4⟩

theorem EqBelow.words {bs bs' : Bytes} {p q n : Nat} {ws : List PyStr} (hb : EqBelow bs bs' n)
    (h : WordsAt bs p ws q) (hn : q ≤ n) : WordsAt bs' p ws q := by
  obtain ⟨h1, h2, h3, h4, h5⟩ := h
  exact ⟨h1, h2, h3, hb.hasAt h4 (by omega), h5⟩

theorem wordsAt_le {bs : Bytes} {p q : Nat} {ws : List PyStr} (h : WordsAt bs p ws q) : p ≤ q := by
  obtain ⟨_, _, _, _, h5⟩ := h; omega

theorem vocabAt_le {bs : Bytes} {p q r : Nat} {v : Vocab} (h : VocabAt bs p v r q) : p ≤ q := by
  cases h with
  | simple head count wa => have := wordsAt_le wa; omega
  | bucket head f wa => have := wordsAt_le wa; omega
  | fastText head f wa => have := wordsAt_le wa; omega
  | explicit head f wa _ _ _ _ _ _ _ _ _ se => have := wordsAt_le wa; omega

theorem EqBelow.vocab {bs bs' : Bytes} {p q r n : Nat} {v : Vocab} (hb : EqBelow bs bs' n)
    (h : VocabAt bs p v r q) (hn : q ≤ n) : VocabAt bs' p v r q := by
  cases h with
  | simple head count wa =>
    have := wordsAt_le wa
    exact .simple (hb.head head (by omega)) (hb.hasAt count (by simp; omega)) (hb.words wa hn)
  | bucket head f wa a b c d e =>
    have := wordsAt_le wa
    exact .bucket (hb.head head (by omega)) (hb.hasAt f (by simp; omega)) (hb.words wa hn) a b c d e
  | fastText head f wa a b c d e =>
    have := wordsAt_le wa
    exact .fastText (hb.head head (by omega)) (hb.hasAt f (by simp; omega)) (hb.words wa hn) a b c d e
  | explicit head f wa a b c d e g i j k l =>
    have := wordsAt_le wa
    exact .explicit (hb.head head (by omega)) (hb.hasAt f (by simp; omega)) (hb.words wa (by omega)) a b c d e g i j
      (hb.hasAt k (by omega)) l

theorem storageAt_le {bs : Bytes} {p q : Nat} {st : Storage F32} (h : StorageAt bs p st q) : p ≤ q := by
  cases h with
  | nd _ _ _ _ _ _ _ _ se => omega
  | quant _ _ _ _ _ _ _ _ _ _ _ _ _ se => omega

theorem EqBelow.storage {bs bs' : Bytes} {p q n : Nat} {st : Storage F32} (hb : EqBelow bs bs' n)
    (h : StorageAt bs p st q) (hn : q ≤ n) : StorageAt bs' p st q := by
  cases h with
  | @nd m pad _ head fields a b shape c d elements se =>
    have hfl := length_flatten_const m.cols m.rows shape
    exact .nd (hb.head head (by omega)) (hb.hasAt fields (by simp; omega)) a b shape c d
      (hb.hasAt elements (by rw [length_floats, hfl]; omega)) se
  | quant head fields a b c d e f g i j k elements se =>
    exact .quant (hb.head head (by omega)) (hb.hasAt fields (by simp; omega)) a b c d e f g i j k
      (hb.hasAt elements (by omega)) se

/-- Equal from `n` on. -/
def EqFrom (bs bs' : Bytes) (n : Nat) : Prop := bs'.length = bs.length ∧ ∀ i, n ≤ i → bs'[i]? = bs[i]?

theorem EqFrom.hasAt {bs bs' enc : Bytes} {p n : Nat} (hb : EqFrom bs bs' n) (h : HasAt bs p enc)
    (hn : n ≤ p) : HasAt bs' p enc :=
  HasAt.frame h fun i hi _ => hb.2 i (by omega)

theorem EqFrom.norms {bs bs' : Bytes} {p n k : Nat} {norms : Option (List F32)} (hb : EqFrom bs bs' n)
    (h : NormsAt bs p k norms) (hn : n ≤ p) : NormsAt bs' p k norms := by
  cases norms with
  | none => show bs'.length ≤ p; rw [hb.1]; exact h
  | some xs =>
    obtain ⟨c, pad, ⟨len, h1, h2⟩, h3, h4, h5, h6, h7, h8⟩ := h
    exact ⟨c, pad, ⟨len, h1, hb.hasAt h2 hn⟩, hb.hasAt h3 (by omega), h4, h5, hb.hasAt h6 (by omega), h7,
      by rw [hb.1]; exact h8⟩

/-- Four other bytes are another float. -/
theorem floats_damage {bs bs' : Bytes} {p k : Nat} {xs : List F32} (h : HasAt bs p (floats xs))
    (hk : k < xs.length) (hd : DiffersWithin bs bs' (p + 4 * k) (p + 4 * k + 4)) :
    ∃ x : F32, HasAt bs' (p + 4 * k) (uint 4 x.toNat) ∧ HasAt bs' p (floats (xs.set k x)) := by
  have hne : floats xs ≠ [] := by
    intro h0
    have := congrArg List.length h0
    simp at this
    rw [this] at hk
    simp at hk
  have hle := FF.hasAt_le h hne
  rw [length_floats] at hle
  let b := (bs'.drop (p + 4 * k)).take 4
  have hb : b.length = 4 := by
    simp only [b, List.length_take, List.length_drop, hd.1]; omega
  have hlt : unle b < 2 ^ 32 := by have := unle_lt b; rw [hb] at this; exact this
  have hx : uint 4 (UInt32.ofNat (unle b)).toNat = b := by
    rw [uint_eq, UInt32.toNat_ofNat_of_lt' hlt, ← hb, le_unle]
  have hat : HasAt bs' (p + 4 * k) b := hasAt_of_take
  refine ⟨UInt32.ofNat (unle b), by rw [hx]; exact hat, ?_⟩
  rw [List.set_eq_take_append_cons_drop, if_pos hk]
  have hs : xs = xs.take k ++ (xs[k] :: xs.drop (k + 1)) := by simp
  rw [hs] at h
  have happ : ∀ a b : List F32, floats (a ++ b) = floats a ++ floats b := by
    intro a b; simp [floats]
  have hcons : ∀ (a : F32) b, floats (a :: b) = uint 4 a.toNat ++ floats b := by
    intro a b; simp [floats]
  rw [happ, hcons, hasAt_append, hasAt_append] at h ⊢
  have hlen : (floats (xs.take k)).length = 4 * k := by
    rw [length_floats, List.length_take]; omega
  rw [hlen] at h ⊢
  refine ⟨HasAt.frame h.1 fun i _ hi => hd.2 i (Or.inl (by rw [hlen] at hi; exact hi)), by rw [hx]; exact hat, ?_⟩
  have h2 := h.2.2
  simp only [length_uint] at h2 ⊢
  exact HasAt.frame h2 fun i hi _ => hd.2 i (Or.inr hi)

theorem floats_at {bs : Bytes} {p k : Nat} {xs : List F32} {x : F32} (h : HasAt bs p (floats xs))
    (hk : xs[k]? = some x) : HasAt bs (p + 4 * k) (uint 4 x.toNat) := by
  obtain ⟨hk1, hk2⟩ := List.getElem?_eq_some_iff.mp hk
  have hs : xs = xs.take k ++ (x :: xs.drop (k + 1)) := by subst hk2; simp
  rw [hs] at h
  have happ : ∀ a b : List F32, floats (a ++ b) = floats a ++ floats b := by
    intro a b; simp [floats]
  have hcons : ∀ (a : F32) b, floats (a :: b) = uint 4 a.toNat ++ floats b := by
    intro a b; simp [floats]
  rw [happ, hcons, hasAt_append, hasAt_append, length_floats, List.length_take,
    Nat.min_eq_left (by omega)] at h
  exact h.2.1

/-- Another byte. -/
theorem bytes_damage {bs bs' : Bytes} {p k : Nat} {xs : Bytes} (h : HasAt bs p xs)
    (hk : k < xs.length) (hd : DiffersWithin bs bs' (p + k) (p + k + 1)) :
    ∃ x : UInt8, bs'[p + k]? = some x ∧ HasAt bs' p (xs.set k x) := by
  rw [hasAt_iff_get] at h
  have hle : p + k < bs'.length := by
    rw [hd.1]
    have := h k hk
    exact (List.getElem?_eq_some_iff.mp this).1
  refine ⟨bs'[p + k], List.getElem?_eq_getElem hle, ?_⟩
  rw [hasAt_iff_get]
  intro i hi
  rw [List.length_set] at hi
  rw [List.getElem_set]
  split
  next e => subst e; exact List.getElem?_eq_getElem hle
  next e => rw [hd.2 (p + i) (by omega), h i hi]

end FF
