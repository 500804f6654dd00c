import Verif.Spec.Heap
import Verif.Lemmas.StorageRows
import Verif.Lemmas.Sim
/-! Heaps, frames and refinement of the value model. -/

namespace FF

section
variable {K α β γ δ : Type}

/-! ### Valid views and frames -/

variable {P Q : Nat → Nat → Prop} {h h' h'' : Heap K}

theorem Heap.Le.refl (P : Nat → Nat → Prop) (h : Heap K) : Heap.Le P h h :=
  ⟨Nat.le_refl _, fun l b hb => ⟨b, hb, rfl, rfl, fun _ => rfl, fun _ _ => rfl⟩⟩

theorem Heap.Le.trans (h1 : Heap.Le P h h') (h2 : Heap.Le P h' h'') : Heap.Le P h h'' := by
  refine ⟨Nat.le_trans h1.len h2.len, fun l b hb => ?_⟩
  obtain ⟨b1, a1, a2, a3, a4, a5⟩ := h1.buf l b hb
  obtain ⟨b2, c1, c2, c3, c4, c5⟩ := h2.buf l b1 a1
  refine ⟨b2, c1, c2.trans a2, c3.trans a3, fun hw => ?_, fun i hi => (c5 i hi).trans (a5 i hi)⟩
  rw [c4 (a2.trans hw), a4 hw]

theorem Heap.Le.mono (hPQ : ∀ l i, l < h.length → P l i → Q l i) (h1 : Heap.Le P h h') :
    Heap.Le Q h h' := by
  refine ⟨h1.len, fun l b hb => ?_⟩
  obtain ⟨b1, a1, a2, a3, a4, a5⟩ := h1.buf l b hb
  have hl : l < h.length := (List.getElem?_eq_some_iff.mp hb).1
  exact ⟨b1, a1, a2, a3, a4, fun i hi => a5 i fun hp => hi (hPQ l i hl hp)⟩

theorem View.Valid.le {v : View} (hv : v.Valid h) (hl : Heap.Le P h h') : v.Valid h' := by
  obtain ⟨b, h1, h2⟩ := hv
  obtain ⟨b', a1, _, a3, _⟩ := hl.buf _ _ h1
  exact ⟨b', a1, fun i hi => by rw [a3]; exact h2 i hi⟩

theorem Heap.Le.read {v : View} (hl : Heap.Le P h h') (hv : v.Valid h)
    (hp : ∀ i ∈ v.idxs, ¬ P v.loc i) : h'.read v = h.read v := by
  obtain ⟨b, h1, h2⟩ := hv
  obtain ⟨b', a1, _, _, _, a5⟩ := hl.buf _ _ h1
  unfold Heap.read
  rw [h1, a1]
  exact List.filterMap_congr fun i hi => a5 i (hp i hi)

theorem read_length {v : View} (hv : v.Valid h) : (h.read v).length = v.idxs.length := by
  obtain ⟨b, h1, h2⟩ := hv
  unfold Heap.read
  rw [h1]
  dsimp only
  clear h1
  generalize v.idxs = is at h2
  induction is with
  | nil => rfl
  | cons i is ih =>
    have hi := h2 i (by simp)
    rw [List.filterMap_cons, List.getElem?_eq_getElem hi]
    simp only [List.length_cons]
    rw [ih fun j hj => h2 j (List.mem_cons_of_mem _ hj)]

/-! ### Elementary operations -/

theorem hm_bind (m : HM K α) (f : α → HM K β) (h : Heap K) :
    (m >>= f) h = match m h with
      | (.ok a, h') => f a h'
      | (.error x, h') => (.error x, h') := by
  show (ExceptT.bind m f) h = _
  simp only [ExceptT.bind, ExceptT.mk]
  show (StateT.bind m (ExceptT.bindCont f)) h = _
  unfold StateT.bind
  show (match m h with | (a, s') => ExceptT.bindCont f a s') = _
  cases hm : m h with
  | mk r s =>
    cases r with
    | ok a => rfl
    | error x => rfl

theorem hm_bind_ok {m : HM K α} {f : α → HM K β} {a : α} (hm : m h = (.ok a, h')) :
    (m >>= f) h = f a h' := by rw [hm_bind, hm]

theorem hm_bind_error {m : HM K α} {f : α → HM K β} {x : PyErr} (hm : m h = (.error x, h')) :
    (m >>= f) h = (.error x, h') := by rw [hm_bind, hm]

theorem hm_look_bind {f : Heap K → α} {g : α → HM K β} : (HM.look f >>= g) h = g (f h) h :=
  hm_bind_ok rfl

theorem hm_read_bind {v : View} {g : List K → HM K β} : (HM.read v >>= g) h = g (h.read v) h :=
  hm_bind_ok rfl

theorem hm_pure_bind {a : α} {g : α → HM K β} : ((pure a : HM K α) >>= g) h = g a h :=
  hm_bind_ok rfl

/-- A writable array of its own, allocated at or after `base`, with the elements `xs`. -/
structure Owned (base : Nat) (h : Heap K) (v : View) (xs : List K) : Prop where
  base : base ≤ v.loc
  valid : v.Valid h
  nodup : v.idxs.Nodup
  writable : ∀ b, h[v.loc]? = some b → b.writable = true
  read : h.read v = xs

theorem le_append (P : Nat → Nat → Prop) (h : Heap K) (b : Buf K) : Heap.Le P h (h ++ [b]) := by
  refine ⟨by simp, fun l c hc => ⟨c, ?_, rfl, rfl, fun _ => rfl, fun _ _ => rfl⟩⟩
  rw [List.getElem?_append_left (List.getElem?_eq_some_iff.mp hc).1]
  exact hc

theorem filterMap_range (pre xs post : List K) :
    ((List.range xs.length).map (pre.length + ·)).filterMap (fun i => (pre ++ xs ++ post)[i]?) = xs := by
  rw [List.filterMap_map]
  have : ((fun i => (pre ++ xs ++ post)[i]?) ∘ (pre.length + ·)) = fun i => (xs ++ post)[i]? := by
    funext i
    simp [List.append_assoc, List.getElem?_append_right]
  rw [this]
  apply List.ext_getElem?
  have h2 : (List.range xs.length).filterMap (fun i => (xs ++ post)[i]?) = xs := by
    have h1 : ∀ i ∈ List.range xs.length, (xs ++ post)[i]? = xs[i]? := by
      intro i hi
      exact List.getElem?_append_left (List.mem_range.mp hi)
    rw [List.filterMap_congr h1]
    clear h1 this
    induction xs with
    | nil => rfl
    | cons x xs ih =>
      rw [List.length_cons, List.range_succ_eq_map, List.filterMap_cons]
      simp only [List.getElem?_cons_zero, List.filterMap_map]
      congr 1
  rw [h2]
  exact fun _ => rfl

theorem alloc_read (h : Heap K) (xs : List K) (w : Bool) :
    Heap.read (h ++ [⟨xs, w⟩]) ⟨h.length, List.range xs.length⟩ = xs := by
  unfold Heap.read
  simp only [List.getElem?_append_right (Nat.le_refl _), Nat.sub_self, List.getElem?_cons_zero]
  have := filterMap_range [] xs []
  simpa using this

theorem alloc_owned {base : Nat} (hb : base ≤ h.length) (xs : List K) :
    Owned base (h ++ [⟨xs, true⟩]) ⟨h.length, List.range xs.length⟩ xs where
  base := hb
  valid := ⟨⟨xs, true⟩, by simp, fun i hi => List.mem_range.mp hi⟩
  nodup := List.nodup_range
  writable := by intro b hb; simp at hb; rw [← hb]
  read := alloc_read h xs true

theorem setAll_length (data : List K) (is : List Nat) (xs : List K) :
    (setAll data is xs).length = data.length := by
  induction is generalizing data xs with
  | nil => cases xs <;> rfl
  | cons i is ih =>
    cases xs with
    | nil => rfl
    | cons x xs => unfold setAll; rw [ih]; simp

theorem setAll_other {data : List K} {is : List Nat} {xs : List K} {j : Nat} (hj : j ∉ is) :
    (setAll data is xs)[j]? = data[j]? := by
  induction is generalizing data xs with
  | nil => cases xs <;> rfl
  | cons i is ih =>
    cases xs with
    | nil => rfl
    | cons x xs =>
      unfold setAll
      rw [ih (fun h => hj (List.mem_cons_of_mem _ h))]
      rw [List.getElem?_set_ne]
      rintro rfl
      exact hj (by simp)

theorem setAll_read {data : List K} {is : List Nat} {xs : List K} (hn : is.Nodup)
    (hi : ∀ i ∈ is, i < data.length) (hl : xs.length = is.length) :
    is.filterMap (fun i => (setAll data is xs)[i]?) = xs := by
  induction is generalizing data xs with
  | nil => cases xs with
    | nil => rfl
    | cons x xs => cases hl
  | cons i is ih =>
    cases xs with
    | nil => cases hl
    | cons x xs =>
      unfold setAll
      obtain ⟨hn1, hn2⟩ := List.nodup_cons.mp hn
      have h1 : (setAll (data.set i x) is xs)[i]? = some x := by
        rw [setAll_other hn1, List.getElem?_set_self (hi i (by simp))]
      rw [List.filterMap_cons, h1]
      dsimp only
      rw [ih hn2 (by intro j hj; rw [List.length_set]; exact hi j (List.mem_cons_of_mem _ hj))
        (by simpa using hl)]

/-- Assigning to an array changes only its cells. -/
theorem write_le {v : View} {xs : List K} {r : Res Unit}
    (hw : HM.write v xs h = (r, h')) (hP : ∀ i ∈ v.idxs, P v.loc i) : Heap.Le P h h' := by
  unfold HM.write at hw
  split at hw
  · cases hw; exact .refl _ _
  · rename_i b hb
    split at hw
    · rename_i hwr
      split at hw
      · cases hw; exact .refl _ _
      · rename_i ys _
        cases hw
        refine ⟨by simp, fun l c hc => ?_⟩
        have hlt := (List.getElem?_eq_some_iff.mp hc).1
        by_cases hl : v.loc = l
        · subst hl
          rw [hb] at hc
          cases hc
          refine ⟨_, List.getElem?_set_self hlt, hwr.symm, setAll_length _ _ _, ?_, ?_⟩
          · intro hf
            rw [hwr] at hf
            cases hf
          · intro i hi
            exact setAll_other fun hm => hi (hP i hm)
        · exact ⟨c, by rw [List.getElem?_set_ne hl]; exact hc, rfl, rfl, fun _ => rfl, fun _ _ => rfl⟩
    · cases hw; exact .refl _ _

/-- Assigning to an owned array. -/
theorem write_owned {base : Nat} {v : View} {xs ys : List K} (ho : Owned base h v xs)
    (hl : ys.length = xs.length) (hP : ∀ i ∈ v.idxs, P v.loc i) :
    ∃ h', HM.write v ys h = (.ok (), h') ∧ Heap.Le P h h' ∧ Owned base h' v ys := by
  obtain ⟨b, hb, hi⟩ := ho.valid
  have hwr := ho.writable b hb
  have hlen : ys.length = v.idxs.length := by
    rw [hl, ← ho.read, read_length ho.valid]
  have hw : HM.write v ys h = (.ok (), h.set v.loc ⟨setAll b.data v.idxs ys, true⟩) := by
    unfold HM.write assignRow
    simp only [hb, hwr, if_true, hlen]
  have hlt := (List.getElem?_eq_some_iff.mp hb).1
  refine ⟨_, hw, write_le hw hP, ho.base, ?_, ho.nodup, ?_, ?_⟩
  · exact ⟨_, List.getElem?_set_self hlt, fun i hm => by rw [setAll_length]; exact hi i hm⟩
  · intro c hc
    rw [List.getElem?_set_self hlt] at hc
    cases hc
    rfl
  · unfold Heap.read
    rw [List.getElem?_set_self hlt]
    exact setAll_read ho.nodup hi hlen

theorem Owned.le {base : Nat} {v : View} {xs : List K} (ho : Owned base h v xs)
    (hl : Heap.Le P h h') (hp : ∀ i ∈ v.idxs, ¬ P v.loc i) : Owned base h' v xs where
  base := ho.base
  valid := ho.valid.le hl
  nodup := ho.nodup
  writable := by
    intro b' hb'
    obtain ⟨b, hb, _⟩ := ho.valid
    obtain ⟨b1, a1, a2, _⟩ := hl.buf _ _ hb
    rw [a1] at hb'
    cases hb'
    rw [a2]
    exact ho.writable b hb
  read := by rw [hl.read ho.valid hp, ho.read]

/-! ### Refinement -/

/-- Run on `h`, the heap computation `m` changes only cells in `P`, raises the same exception as the
value computation `r` or returns something related to its value. -/
def Refines (P : Nat → Nat → Prop) (h : Heap K) (m : HM K α) (r : Res β)
    (R : Heap K → α → β → Prop) : Prop :=
  ∃ x h', m h = (x, h') ∧ Heap.Le P h h' ∧
    match x, r with
    | .ok a, .ok b => R h' a b
    | .error x, .error y => x = y
    | _, _ => False

theorem Refines.bind {m : HM K α} {r : Res β} {R : Heap K → α → β → Prop} {f : α → HM K γ}
    {g : β → Res δ} {R' : Heap K → γ → δ → Prop} (h1 : Refines P h m r R)
    (h2 : ∀ h' a b, Heap.Le P h h' → r = .ok b → R h' a b → Refines P h' (f a) (g b) R') :
    Refines P h (m >>= f) (r >>= g) R' := by
  obtain ⟨x, h', hm, hle, hx⟩ := h1
  match x, r, hx with
  | .ok a, .ok b, hx =>
    obtain ⟨y, h'', hy, hle', hr⟩ := h2 h' a b hle rfl hx
    exact ⟨y, h'', (hm_bind_ok hm).trans hy, hle.trans hle', hr⟩
  | .error x, .error y, hx =>
    cases hx
    exact ⟨.error x, h', hm_bind_error hm, hle, rfl⟩

/-- The value computation has no further steps. -/
theorem Refines.last {m : HM K α} {r : Res β} {R : Heap K → α → β → Prop} {f : α → HM K γ}
    {R' : Heap K → γ → β → Prop} (h1 : Refines P h m r R)
    (h2 : ∀ h' a b, Heap.Le P h h' → r = .ok b → R h' a b → Refines P h' (f a) (.ok b) R') :
    Refines P h (m >>= f) r R' := by
  have := Refines.bind (g := fun b => .ok b) h1 h2
  cases r <;> exact this

/-- The first steps of the heap computation have no counterpart in the value computation. -/
theorem Refines.step {m m' : HM K α} {r : Res β} {R : Heap K → α → β → Prop}
    (he : m h = m' h') (hle : Heap.Le P h h') (h1 : Refines P h' m' r R) : Refines P h m r R := by
  obtain ⟨x, h'', hm, hl, hx⟩ := h1
  exact ⟨x, h'', he.trans hm, hle.trans hl, hx⟩

theorem Refines.pure {a : α} {b : β} {R : Heap K → α → β → Prop} (hr : R h a b) :
    Refines P h (pure a) (.ok b) R := ⟨.ok a, h, rfl, .refl _ _, hr⟩

theorem Refines.lift {r : Res α} : Refines P h (HM.lift r) r (fun h' a b => a = b ∧ h' = h) := by
  refine ⟨r, h, rfl, .refl _ _, ?_⟩
  cases r with
  | ok a => exact ⟨rfl, rfl⟩
  | error x => exact rfl

theorem Refines.lift' {r : Res α} {r' : Res β} {R : Heap K → α → β → Prop}
    (hr : ∀ a, r = .ok a → ∃ b, r' = .ok b ∧ R h a b)
    (he : ∀ x, r = .error x → r' = .error x) : Refines P h (HM.lift r) r' R := by
  refine ⟨r, h, rfl, .refl _ _, ?_⟩
  cases r with
  | ok a =>
    obtain ⟨b, hb, h1⟩ := hr a rfl
    rw [hb]
    exact h1
  | error x =>
    rw [he x rfl]

theorem Refines.fail {x : PyErr} {R : Heap K → α → β → Prop} :
    Refines P h (HM.fail x) (.error x) R := ⟨.error x, h, rfl, .refl _ _, rfl⟩

theorem Refines.mono {m : HM K α} {r : Res β} {R R' : Heap K → α → β → Prop}
    (h1 : Refines P h m r R) (hR : ∀ h' a b, Heap.Le P h h' → r = .ok b → R h' a b → R' h' a b) :
    Refines P h m r R' := by
  obtain ⟨x, h', hm, hle, hx⟩ := h1
  refine ⟨x, h', hm, hle, ?_⟩
  match x, r, hx with
  | .ok a, .ok b, hx => exact hR h' a b hle rfl hx
  | .error x, .error y, hx => exact hx

/-- The allowed cells only matter for existing buffers. -/
theorem Refines.frame {m : HM K α} {r : Res β} {R : Heap K → α → β → Prop}
    (h1 : Refines P h m r R) (hPQ : ∀ l i, l < h.length → P l i → Q l i) : Refines Q h m r R := by
  obtain ⟨x, h', hm, hle, hx⟩ := h1
  exact ⟨x, h', hm, hle.mono hPQ, hx⟩

/-! ### Values of objects -/

/-- The views are valid and outside of `P`. -/
def Safe (P : Nat → Nat → Prop) (h : Heap K) (vs : List View) : Prop :=
  ∀ v ∈ vs, v.Valid h ∧ ∀ i ∈ v.idxs, ¬ P v.loc i

theorem Safe.le {vs : List View} (hs : Safe P h vs) (hl : Heap.Le P h h') : Safe P h' vs :=
  fun v hv => ⟨(hs v hv).1.le hl, (hs v hv).2⟩

theorem Safe.read {vs : List View} (hs : Safe P h vs) (hl : Heap.Le P h h') {v : View} (hv : v ∈ vs) :
    h'.read v = h.read v := hl.read (hs v hv).1 (hs v hv).2

theorem Safe.mono {vs ws : List View} (hs : Safe P h vs) (hw : ∀ v ∈ ws, v ∈ vs) : Safe P h ws :=
  fun v hv => hs v (hw v hv)

theorem HMat.val_le {m : HMat} (hs : Safe P h m.views) (hl : Heap.Le P h h') : m.val h' = m.val h := by
  unfold HMat.val
  congr 1
  apply List.map_congr_left
  intro r hr
  exact hs.read hl (List.mem_map_of_mem hr)

theorem HPQ.val_le {pq : HPQ} (hs : Safe P h pq.views) (hl : Heap.Le P h h') :
    pq.val h' = pq.val h := by
  unfold HPQ.val
  congr 1
  · apply List.map_congr_left
    intro m hm
    rw [HMat.val_le (hs.mono fun v hv => ?_) hl]
    exact List.mem_append_left _ (List.mem_flatMap.mpr ⟨m, hm, hv⟩)
  · cases hp : pq.projection with
    | none => rfl
    | some p =>
      show some _ = some _
      rw [HMat.val_le (hs.mono fun v hv => ?_) hl]
      unfold HPQ.views
      rw [hp]
      exact List.mem_append_right _ hv

theorem HQArr.val_le {q : HQArr} (hs : Safe P h q.views) (hl : Heap.Le P h h') :
    q.val h' = q.val h := by
  unfold HQArr.val
  rw [HPQ.val_le (hs.mono fun v hv => List.mem_append_left _ hv) hl]
  congr 1
  cases hn : q.norms with
  | none => rfl
  | some v =>
    show some _ = some _
    rw [hs.read hl]
    unfold HQArr.views
    rw [hn]
    simp

theorem HStorage.val_le {s : HStorage} (hs : Safe P h s.views) (hl : Heap.Le P h h') :
    s.val h' = s.val h := by
  cases s with
  | nd m => show Storage.nd _ = Storage.nd _; rw [HMat.val_le hs hl]
  | quant q => show Storage.quant _ = Storage.quant _; rw [HQArr.val_le hs hl]

theorem HEmb.val_le {E : HEmb} (hs : Safe P h E.views) (hl : Heap.Le P h h') :
    E.val h' = E.val h := by
  unfold HEmb.val
  rw [HStorage.val_le (hs.mono fun v hv => List.mem_append_left _ hv) hl]
  congr 1
  cases hn : E.norms with
  | none => rfl
  | some v =>
    show some _ = some _
    rw [hs.read hl]
    unfold HEmb.views
    rw [hn]
    simp

end

end FF
