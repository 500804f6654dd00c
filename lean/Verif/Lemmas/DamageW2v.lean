import Verif.Lemmas.Damage
import Verif.Lemmas.FtLayout
import Verif.Spec.W2vFile
/-! Replacing bytes of a vector in a word2vec file. -/

namespace FF
open Fifu

theorem split_at {bs bs' pre mid post : Bytes} (h : bs = pre ++ (mid ++ post))
    (hd : DiffersWithin bs bs' pre.length (pre.length + mid.length)) :
    ∃ mid', mid'.length = mid.length ∧ bs' = pre ++ (mid' ++ post) := by
  have hlen : bs'.length = pre.length + (mid.length + post.length) := by rw [hd.1, h]; simp
  refine ⟨(bs'.drop pre.length).take mid.length, by rw [List.length_take, List.length_drop]; omega, ?_⟩
  have h1 : bs'.take pre.length = pre := by
    apply List.ext_getElem?
    intro i
    rw [List.getElem?_take]
    split
    next hi => rw [hd.2 i (Or.inl hi), h, List.getElem?_append_left hi]
    next hi => exact (List.getElem?_eq_none (by omega)).symm
  have h2 : (bs'.drop pre.length).drop mid.length = post := by
    apply List.ext_getElem?
    intro i
    rw [List.drop_drop, List.getElem?_drop, hd.2 _ (Or.inr (by omega)), h,
      List.getElem?_append_right (by omega), List.getElem?_append_right (by omega)]
    congr 1
    omega
  rw [← h2]
  conv_lhs => rw [← List.take_append_drop pre.length bs', h1]
  rw [List.take_append_drop]

theorem hasAt_mid {pre mid post : Bytes} : HasAt (pre ++ (mid ++ post)) pre.length mid := by
  unfold HasAt
  rw [List.drop_left]
  exact ⟨post, rfl⟩

/-- The vectors of a file. -/
theorem w2vBody_damage {lossy : Bool} {cols : Nat} {body : Bytes} {rs : List (PyStr × List F32)}
    (h : W2vBody lossy cols body rs) :
    ∀ (pre : Bytes) (i : Nat) (w : PyStr) (v : List F32), rs[i]? = some (w, v) →
    ∃ pos len, pre.length ≤ pos ∧ VecAt (pre ++ body) pos cols v len ∧
      ∀ bs', DiffersWithin (pre ++ body) bs' pos (pos + len) →
        ∃ v' body', bs' = pre ++ body' ∧ VecAt bs' pos cols v' len ∧
          W2vBody lossy cols body' (rs.set i (w, v')) := by
  induction h with
  | nil rest => intro pre i w v hi; simp at hi
  | @row k w0 v0 rest rs hk hv _ ih =>
    intro pre i w v hi
    cases i with
    | zero =>
      simp only [List.getElem?_cons_zero, Option.some.injEq, Prod.mk.injEq] at hi
      obtain ⟨rfl, rfl⟩ := hi
      have hshape : ∀ x : Bytes, pre ++ (k ++ 32 :: (x ++ rest)) = (pre ++ k ++ [32]) ++ (x ++ rest) := by
        intro x; simp
      have hfl : (f32sLE v0).length = 4 * cols := by rw [length_f32sLE, hv]
      refine ⟨(pre ++ k ++ [32]).length, 4 * cols, by simp, ⟨hv, Or.inl ⟨rfl, ?_⟩⟩, ?_⟩
      · rw [floats_eq, hshape]; exact hasAt_mid
      · intro bs' hd
        obtain ⟨mid, hm, rfl⟩ := split_at (hshape (f32sLE v0)) (by rw [hfl]; exact hd)
        rw [hfl] at hm
        have hback := f32sLE_f32sOf mid (by omega)
        have hl' : (f32sOf mid).length = cols := by
          have := congrArg List.length hback
          rw [length_f32sLE] at this; omega
        refine ⟨f32sOf mid, k ++ 32 :: (f32sLE (f32sOf mid) ++ rest), ?_, ⟨hl', Or.inl ⟨rfl, ?_⟩⟩, ?_⟩
        · rw [hback]; exact (hshape mid).symm
        · rw [floats_eq, hback]; exact hasAt_mid
        · exact .row hk hl' ‹_›
    | succ i =>
      simp only [List.getElem?_cons_succ] at hi
      have hshape : ∀ x : Bytes, pre ++ (k ++ 32 :: (f32sLE v0 ++ x)) = (pre ++ k ++ 32 :: f32sLE v0) ++ x := by
        intro x; simp
      obtain ⟨pos, len, h1, h2, h3⟩ := ih (pre ++ k ++ 32 :: f32sLE v0) i w v hi
      rw [hshape]
      refine ⟨pos, len, by simp at h1; omega, h2, fun bs' hd => ?_⟩
      obtain ⟨v', body', hb, hva, hbody⟩ := h3 bs' hd
      exact ⟨v', k ++ 32 :: (f32sLE v0 ++ body'), by rw [hshape]; exact hb, hva, .row hk hv hbody⟩
  | @one k w0 x t hk h2 ht =>
    intro pre i w v hi
    cases i with
    | succ i => simp at hi
    | zero =>
      simp only [List.getElem?_cons_zero, Option.some.injEq, Prod.mk.injEq] at hi
      obtain ⟨rfl, rfl⟩ := hi
      have hshape : ∀ x : Bytes, pre ++ (k ++ 32 :: (x ++ t)) = (pre ++ k ++ [32]) ++ (x ++ t) := by
        intro x; simp
      have hfl : (f32sLE [x]).length = 4 := by rw [length_f32sLE]; rfl
      refine ⟨(pre ++ k ++ [32]).length, 4, by simp,
        ⟨by simp, Or.inr ⟨h2, rfl, by rw [hshape]; simp [hfl]; omega, x, rfl, ?_⟩⟩, ?_⟩
      · rw [floats_eq, hshape]; exact hasAt_mid
      · intro bs' hd
        obtain ⟨mid, hm, rfl⟩ := split_at (hshape (f32sLE [x])) (by rw [hfl]; exact hd)
        rw [hfl] at hm
        have hback := f32sLE_f32sOf mid (by omega)
        have hl' : (f32sOf mid).length = 1 := by
          have := congrArg List.length hback
          rw [length_f32sLE] at this; omega
        obtain ⟨y, hy⟩ := List.length_eq_one_iff.mp hl'
        rw [hy] at hback
        refine ⟨List.replicate cols y, k ++ 32 :: (f32sLE [y] ++ t), ?_,
          ⟨by simp, Or.inr ⟨h2, rfl, by simp [hm]; omega, y, rfl, ?_⟩⟩, ?_⟩
        · rw [hback]; exact (hshape mid).symm
        · rw [floats_eq, hback]; exact hasAt_mid
        · exact .one hk h2 ht

end FF
