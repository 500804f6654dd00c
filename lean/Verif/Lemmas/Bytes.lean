import Mathlib.Tactic.Ring
import Mathlib.Tactic.Linarith
import Mathlib.Algebra.BigOperators.Group.List.Basic
import Verif.Model.Io
/-! Lemmas on little-endian integers, `struct` and float arrays. -/

namespace FF

@[simp] theorem length_le (w n : Nat) : (le w n).length = w := by
  induction w generalizing n with
  | zero => rfl
  | succ w ih => simp [le, ih]

theorem unle_le (w n : Nat) (h : n < 256 ^ w) : unle (le w n) = n := by
  induction w generalizing n with
  | zero => simp at h; simp [le, unle, h]
  | succ w ih =>
    have h' : n / 256 < 256 ^ w := by
      rw [pow_succ] at h
      omega
    simp only [le, unle, ih _ h', UInt8.toNat_ofNat']
    omega

theorem unle_lt (bs : Bytes) : unle bs < 256 ^ bs.length := by
  induction bs with
  | nil => simp [unle]
  | cons b bs ih =>
    have := b.toNat_lt
    simp only [unle, List.length_cons, pow_succ]
    omega

theorem le_unle (bs : Bytes) : le bs.length (unle bs) = bs := by
  induction bs with
  | nil => rfl
  | cons b bs ih =>
    have := b.toNat_lt
    have h1 : (b.toNat + 256 * unle bs) / 256 = unle bs := by omega
    have h2 : UInt8.ofNat (b.toNat + 256 * unle bs) = b := by
      apply UInt8.toNat_inj.mp
      rw [UInt8.toNat_ofNat']
      omega
    simp only [List.length_cons, unle, le, h1, h2, ih]

theorem le_injective (w m n : Nat) (hm : m < 256 ^ w) (hn : n < 256 ^ w)
    (h : le w m = le w n) : m = n := by
  rw [← unle_le w m hm, ← unle_le w n hn, h]

theorem unpack_length (ws : List Nat) (bs : Bytes) : (unpack ws bs).length = ws.length := by
  induction ws generalizing bs with
  | nil => rfl
  | cons w ws ih => simp [unpack, ih]

@[simp] theorem length_packRaw (fs : List (Nat × Nat)) :
    (packRaw fs).length = calcsize (fs.map Prod.fst) := by
  induction fs with
  | nil => rfl
  | cons f fs ih =>
    obtain ⟨w, n⟩ := f
    simp only [packRaw, List.length_append, length_le, ih, calcsize, List.map_cons, List.sum_cons]

theorem unpack_packRaw (fs : List (Nat × Nat)) (h : ∀ f ∈ fs, f.2 < 256 ^ f.1) :
    unpack (fs.map Prod.fst) (packRaw fs) = fs.map Prod.snd := by
  induction fs with
  | nil => rfl
  | cons f fs ih =>
    obtain ⟨w, n⟩ := f
    have h1 := h (w, n) (by simp)
    have h2 : ∀ f ∈ fs, f.2 < 256 ^ f.1 := fun f hf => h f (by simp [hf])
    have e1 : (le w n ++ packRaw fs).take w = le w n := by
      rw [List.take_append_of_le_length (by simp)]
      rw [List.take_of_length_le (by simp)]
    have e2 : (le w n ++ packRaw fs).drop w = packRaw fs := by
      rw [List.drop_append_of_le_length (by simp)]
      rw [List.drop_of_length_le (by simp)]
      rfl
    simp only [packRaw, List.map_cons, unpack, e1, e2, unle_le w n h1, ih h2]

theorem pack_ok {fs : List (Nat × Nat)} {bs : Bytes} (h : pack fs = .ok bs) :
    bs = packRaw fs ∧ ∀ f ∈ fs, f.2 < 256 ^ f.1 := by
  unfold pack at h
  split at h
  · rename_i hc
    cases h
    refine ⟨rfl, ?_⟩
    intro f hf
    have := List.all_eq_true.mp hc f hf
    simpa using this
  · cases h

/-! ### float32 arrays -/

@[simp] theorem length_f32le (x : F32) : (f32le x).length = 4 := by simp [f32le]

@[simp] theorem length_f32sLE (xs : List F32) : (f32sLE xs).length = 4 * xs.length := by
  induction xs with
  | nil => rfl
  | cons x xs ih => simp [f32sLE, ih]; omega

theorem f32sLE_append (xs ys : List F32) : f32sLE (xs ++ ys) = f32sLE xs ++ f32sLE ys := by
  induction xs with
  | nil => rfl
  | cons x xs ih => simp [f32sLE, ih]

theorem f32sOf_f32le_append (x : F32) (bs : Bytes) : f32sOf (f32le x ++ bs) = x :: f32sOf bs := by
  have hx : x.toNat < 256 ^ 4 := x.toNat_lt
  have h := unle_le 4 x.toNat hx
  simp only [f32le, le, List.cons_append, List.nil_append, f32sOf] at h ⊢
  rw [h]
  simp

theorem f32sOf_append (xs : List F32) (bs : Bytes) :
    f32sOf (f32sLE xs ++ bs) = xs ++ f32sOf bs := by
  induction xs with
  | nil => rfl
  | cons x xs ih =>
    simp only [f32sLE, List.append_assoc, f32sOf_f32le_append, ih, List.cons_append]

theorem f32sOf_f32sLE (xs : List F32) : f32sOf (f32sLE xs) = xs := by
  have := f32sOf_append xs []
  simpa [f32sOf] using this

theorem length_f32sOf (bs : Bytes) : (f32sOf bs).length = bs.length / 4 := by
  induction bs using f32sOf.induct with
  | case1 b0 b1 b2 b3 bs ih =>
    simp only [f32sOf, List.length_cons, ih]; omega
  | case2 bs h =>
    match bs, h with
    | [], _ => rfl
    | [_], _ => simp [f32sOf]
    | [_, _], _ => simp [f32sOf]
    | [_, _, _], _ => simp [f32sOf]
    | a :: b :: c :: d :: e, h => exact absurd rfl (h a b c d e)

@[simp] theorem length_zeros (n : Nat) : (zeros n).length = n := by simp [zeros]

end FF
