import Verif.Lemmas.HeapOut
import Verif.Lemmas.StorageRows
import Verif.Props.C37
import Verif.Spec.Quantized
/-! Lemmas about `QuantizedArray.embedding` for all keys. -/

namespace FF

/-! ### Keys -/

section
variable {α β : Type}

theorem maskTake_sel (bs : List Bool) (xs : List α) (hl : bs.length = xs.length) :
    ∃ is : List Nat, is.Pairwise (· < ·) ∧ (∀ j, j ∈ is ↔ bs[j]? = some true) ∧
      List.Forall₂ (fun i y => xs[i]? = some y) is (maskTake bs xs) := by
  induction bs generalizing xs with
  | nil => exact ⟨[], .nil, by simp, .nil⟩
  | cons b bs ih =>
    match xs, hl with
    | x :: xs, hl =>
      obtain ⟨is, h1, h2, h3⟩ := ih xs (by simpa using hl)
      have h4 : (is.map (· + 1)).Pairwise (· < ·) := by
        rw [List.pairwise_map]
        exact h1.imp fun h => by omega
      have h5 : List.Forall₂ (fun i y => (x :: xs)[i]? = some y) (is.map (· + 1)) (maskTake bs xs) := by
        rw [List.forall₂_map_left_iff]
        exact h3.imp fun i y h => by rw [List.getElem?_cons_succ]; exact h
      have h6 : ∀ j, j ∈ is.map (· + 1) ↔ ∃ i, j = i + 1 ∧ bs[i]? = some true := by
        intro j
        rw [List.mem_map]
        constructor
        · rintro ⟨i, hi, rfl⟩
          exact ⟨i, rfl, (h2 i).mp hi⟩
        · rintro ⟨i, rfl, hi⟩
          exact ⟨i, (h2 i).mpr hi, rfl⟩
      cases b with
      | true =>
        refine ⟨0 :: is.map (· + 1), ?_, fun j => ?_, .cons rfl h5⟩
        · refine List.pairwise_cons.mpr ⟨fun j hj => ?_, h4⟩
          obtain ⟨i, rfl, _⟩ := (h6 j).mp hj
          omega
        · rw [List.mem_cons, h6]
          cases j with
          | zero => simp
          | succ j => simp
      | false =>
        refine ⟨is.map (· + 1), h4, fun j => ?_, h5⟩
        rw [h6]
        cases j with
        | zero => simp
        | succ j => simp

theorem keySel_unique {n : Nat} {key : Key} {s s' is is' : List Nat} (h : KeySel n key s is)
    (h' : KeySel n key s' is') : s = s' ∧ is = is' := by
  have hat : ∀ {i : Int} {j j' : Nat}, At n i j → At n i j' → j = j' := by
    rintro i j j' ⟨a, b⟩ ⟨c, d⟩
    omega
  cases key with
  | int i =>
    obtain ⟨rfl, j, rfl, h1⟩ := h
    obtain ⟨rfl, j', rfl, h2⟩ := h'
    exact ⟨rfl, by rw [hat h1 h2]⟩
  | arr sh js =>
    obtain ⟨rfl, h1⟩ := h
    obtain ⟨rfl, h2⟩ := h'
    refine ⟨rfl, ?_⟩
    clear * - h1 h2 hat
    induction h1 generalizing is' with
    | nil => cases h2; rfl
    | cons a _ ih =>
      cases h2 with
      | cons b h2 => rw [hat a b, ih h2]
  | mask bs =>
    obtain ⟨rfl, _, h1, h2⟩ := h
    obtain ⟨rfl, _, k1, k2⟩ := h'
    have : is = is' := by
      refine List.Perm.eq_of_pairwise (le := (· < ·)) ?_ h1 k1
        ((List.perm_ext_iff_of_nodup (h1.imp Nat.ne_of_lt) (k1.imp Nat.ne_of_lt)).mpr fun x => by
          rw [h2, k2])
      intro a b _ _ hab hba
      omega
    exact ⟨by rw [this], this⟩
  | slice sl =>
    obtain ⟨rfl, _, h1⟩ := h
    obtain ⟨rfl, _, h2⟩ := h'
    have := sliceSel_unique h1 h2
    exact ⟨by rw [this], this⟩

theorem forall₂_get_eq {xs : List α} {is : List Nat} {ys zs : List α}
    (h : List.Forall₂ (fun i y => xs[i]? = some y) is ys)
    (h' : List.Forall₂ (fun i y => xs[i]? = some y) is zs) : ys = zs := by
  induction h generalizing zs with
  | nil => cases h'; rfl
  | cons a _ ih =>
    cases h' with
    | cons b h' =>
      rw [a] at b
      rw [Option.some.inj b, ih h']

theorem key_take_sel {key : Key} {xs ys : List α} {s : List Nat} (h : key.take xs = .ok (s, ys)) :
    ∃ is, KeySel xs.length key s is ∧ List.Forall₂ (fun i y => xs[i]? = some y) is ys := by
  cases key with
  | int i =>
    obtain ⟨x, h1, h⟩ := res_bind_inv (m := npGet xs i) h
    cases h
    obtain ⟨j, h2, h3⟩ := npGet_ok.mp h1
    exact ⟨[j], ⟨rfl, j, rfl, npIndex_ok.mp h2⟩, .cons h3 .nil⟩
  | arr sh js =>
    obtain ⟨ys', h1, h⟩ := res_bind_inv (m := npTake xs js) h
    cases h
    have h2 := mapRes_ok.mp h1
    have : ∃ is, List.Forall₂ (At xs.length) js is ∧ List.Forall₂ (fun i y => xs[i]? = some y) is ys := by
      clear * - h2
      induction h2 with
      | nil => exact ⟨[], .nil, .nil⟩
      | cons a _ ih =>
        obtain ⟨is, k1, k2⟩ := ih
        obtain ⟨j, a1, a2⟩ := npGet_ok.mp a
        exact ⟨j :: is, .cons (npIndex_ok.mp a1) k1, .cons a2 k2⟩
    obtain ⟨is, k1, k2⟩ := this
    exact ⟨is, ⟨rfl, k1⟩, k2⟩
  | mask bs =>
    unfold Key.take at h
    dsimp only at h
    by_cases hl : bs.length ≠ xs.length
    · rw [if_pos hl] at h
      cases h
    · rw [if_neg hl] at h
      cases h
      obtain ⟨is, h1, h2, h3⟩ := maskTake_sel bs xs (not_not.mp hl)
      exact ⟨is, ⟨by rw [h3.length_eq], not_not.mp hl, h1, h2⟩, h3⟩
  | slice sl =>
    obtain ⟨ys', h1, h⟩ := res_bind_inv (m := npSlice xs sl) h
    cases h
    obtain ⟨h2, is, h3, h4⟩ := ((C37_sequence xs sl).2.2 ys).mp h1
    exact ⟨is, ⟨by rw [h4.length_eq], h2, h3⟩, h4⟩

theorem keySel_lt {n : Nat} {key : Key} {s is : List Nat} (h : KeySel n key s is) : ∀ i ∈ is, i < n := by
  cases key with
  | int i =>
    obtain ⟨_, j, rfl, h⟩ := h
    intro i hi
    rw [List.mem_singleton] at hi
    subst hi
    exact h.1
  | arr sh js =>
    obtain ⟨_, h⟩ := h
    intro i hi
    obtain ⟨k, hk, rfl⟩ := List.getElem_of_mem hi
    exact ((List.forall₂_iff_get.mp h).2 k (by rw [h.length_eq]; exact hk) hk).1
  | mask bs =>
    obtain ⟨_, h1, _, h2⟩ := h
    intro i hi
    have := (List.getElem?_eq_some_iff.mp ((h2 i).mp hi)).1
    omega
  | slice sl =>
    obtain ⟨_, h1, h2⟩ := h
    intro i hi
    unfold SliceSel at h2
    rcases h2 with ⟨_, _, lo, _, h⟩ | ⟨_, _, hi', _, h⟩
    · exact ((h i).mp hi).1
    · exact ((h i).mp hi).1

theorem forall₂_get_total {xs : List α} {is : List Nat} (h : ∀ i ∈ is, i < xs.length) :
    ∃ ys, List.Forall₂ (fun i y => xs[i]? = some y) is ys := by
  obtain ⟨ys, _, h2⟩ := npTake_nat h
  exact ⟨ys, h2⟩

theorem key_take_total {key : Key} {xs : List α} {s is : List Nat} (h : KeySel xs.length key s is) :
    ∃ ys, key.take xs = .ok (s, ys) ∧ List.Forall₂ (fun i y => xs[i]? = some y) is ys := by
  have : ∃ p, key.take xs = .ok p := by
    cases key with
    | int i =>
      obtain ⟨_, j, rfl, h1⟩ := h
      have h2 := npGet_of (npIndex_ok.mpr h1) (List.getElem?_eq_getElem h1.1)
      exact ⟨([], [_]), by unfold Key.take; dsimp only; rw [h2]; rfl⟩
    | arr sh js =>
      obtain ⟨_, h1⟩ := h
      have : ∃ ys, npTake xs js = .ok ys := by
        clear * - h1
        unfold npTake
        induction h1 with
        | nil => exact ⟨[], rfl⟩
        | cons a _ ih =>
          obtain ⟨ys, hy⟩ := ih
          have h2 := npGet_of (npIndex_ok.mpr a) (List.getElem?_eq_getElem a.1)
          exact ⟨_ :: ys, by rw [mapRes, h2, hy]; rfl⟩
      obtain ⟨ys, hy⟩ := this
      exact ⟨(sh, ys), by unfold Key.take; dsimp only; rw [hy]; rfl⟩
    | mask bs =>
      obtain ⟨_, h1, _⟩ := h
      refine ⟨([(maskTake bs xs).length], maskTake bs xs), ?_⟩
      unfold Key.take
      dsimp only
      rw [if_neg (not_not.mpr h1)]
      rfl
    | slice sl =>
      obtain ⟨_, h1, _⟩ := h
      obtain ⟨ys, hy⟩ := (C37_sequence xs sl).2.1 h1
      exact ⟨([ys.length], ys), by unfold Key.take; dsimp only; rw [hy]; rfl⟩
  obtain ⟨⟨s', ys⟩, hp⟩ := this
  obtain ⟨is', h1, h2⟩ := key_take_sel hp
  obtain ⟨rfl, rfl⟩ := keySel_unique h h1
  exact ⟨ys, hp, h2⟩

/-- The exception for a key that does not fit -/
def Key.err : Key → PyErr
  | .slice _ => .valueError
  | _ => .indexError

theorem key_take_error {key : Key} {ws : List α} {e : PyErr} (h : key.take ws = .error e) : e = key.err := by
  cases key with
  | int i =>
    unfold Key.take at h
    dsimp only at h
    cases hx : npGet ws i with
    | error e' => rw [hx] at h; cases h; exact (npGet_err hx).1
    | ok x => rw [hx] at h; cases h
  | arr sh js =>
    unfold Key.take at h
    dsimp only at h
    cases hx : npTake ws js with
    | error e' =>
      rw [hx] at h; cases h
      obtain ⟨i, _, hi⟩ := mapRes_err hx
      exact (npGet_err hi).1
    | ok x => rw [hx] at h; cases h
  | mask bs =>
    unfold Key.take at h
    dsimp only at h
    by_cases hl : bs.length ≠ ws.length
    · rw [if_pos hl] at h; cases h; rfl
    · rw [if_neg hl] at h; cases h
  | slice sl =>
    unfold Key.take at h
    dsimp only at h
    by_cases h0 : sl.step = some 0
    · rw [(C37_sequence ws sl).1 h0] at h; cases h; rfl
    · obtain ⟨ys, hy⟩ := (C37_sequence ws sl).2.1 h0
      rw [hy] at h; cases h

/-- A key that selects nothing raises. -/
theorem key_take_none {key : Key} {xs : List α} (h : ∀ s is, ¬ KeySel xs.length key s is) :
    key.take xs = .error key.err := by
  cases hx : key.take xs with
  | ok p =>
    obtain ⟨is, h1, _⟩ := key_take_sel (s := p.1) (ys := p.2) hx
    exact absurd h1 (h _ _)
  | error e => rw [key_take_error hx]

end

/-! ### Values -/

section
variable {K : Type}

theorem gatherAll_eq {pq : PQ K} (hs : ∀ m ∈ pq.quantizers, ∀ r ∈ m, r.length = pq.sub) {codes : List (List UInt8)}
    (hc : ∀ c ∈ codes, c.length = pq.quantizers.length) :
    pq.gatherAll pq.quantizers.length codes = (mapRes pq.gather codes).map List.flatten := by
  have key : ∀ (cs : List (List UInt8)), (∀ c ∈ cs, c.length = pq.quantizers.length) →
      mapRes (fun row => mapRes (fun qc : List (List K) × UInt8 => npGet qc.1 (qc.2.toNat : Int))
        (pq.quantizers.zip row)) cs >>= (fun parts => .ok (parts.map List.flatten)) = mapRes pq.gather cs := by
    intro cs hcs
    induction cs with
    | nil => rfl
    | cons c cs ih =>
      have hg : pq.gather c = mapRes (fun qc : List (List K) × UInt8 => npGet qc.1 (qc.2.toNat : Int))
          (pq.quantizers.zip c) >>= fun parts => .ok parts.flatten := by
        unfold PQ.gather
        dsimp only
        rw [if_neg (not_not.mpr (hcs c (by simp)))]
        rfl
      rw [mapRes, mapRes, hg, ← ih fun c hc => hcs c (List.mem_cons_of_mem _ hc)]
      cases mapRes (fun qc : List (List K) × UInt8 => npGet qc.1 (qc.2.toNat : Int)) (pq.quantizers.zip c) with
      | error e => rfl
      | ok p =>
        cases mapRes (fun row => mapRes (fun qc : List (List K) × UInt8 => npGet qc.1 (qc.2.toNat : Int))
          (pq.quantizers.zip row)) cs with
        | error e => rfl
        | ok ps => rfl
  unfold PQ.gatherAll
  dsimp only
  rw [if_neg (fun h => h.1 rfl)]
  simp only [if_true]
  rw [← key codes hc]
  cases hm : mapRes (fun row => mapRes (fun qc : List (List K) × UInt8 => npGet qc.1 (qc.2.toNat : Int))
      (pq.quantizers.zip row)) codes with
  | error e => rfl
  | ok ps =>
    have hk := key codes hc
    rw [hm] at hk
    have hlen : (ps.map List.flatten).flatten.length = codes.length * pq.reconstructedLen := by
      have hk' : mapRes pq.gather codes = .ok (ps.map List.flatten) := hk.symm
      rw [flatten_const_length (s := pq.reconstructedLen), mapRes_length hk']
      intro p hp
      have h2 := mapRes_ok.mp hk'
      obtain ⟨t, ht, rfl⟩ := List.getElem_of_mem hp
      exact gather_length hs ((List.forall₂_iff_get.mp h2).2 t (by rw [h2.length_eq]; exact ht) ht)
    show (if ((ps.map List.flatten).flatten).length ≠ codes.length * pq.reconstructedLen then
      (Except.error PyErr.valueError >>= fun _ : PUnit => pure (ps.map List.flatten).flatten)
      else pure (ps.map List.flatten).flatten) = _
    rw [if_neg (not_not.mpr hlen)]
    rfl

variable [NumOps K]

/-- `QuantizedArray.embedding` on values -/
def QArr.embeddingAll (q : QArr K) (key : Key) : Res (List Nat × List (List K)) := do
  let quantized ← key.take q.codes
  let out ← mapRes q.pq.reconstruct quantized.2
  match q.norms with
  | none => return (quantized.1, out)
  | some norms => do
    let ns ← key.take norms
    return (quantized.1, List.zipWith scale ns.2 out)

theorem getOne_at {q : QArr K} (hq : QWF q) {key : Key} {s is : List Nat} (hk : KeySel q.codes.length key s is) :
    q.embeddingAll key = (mapRes (fun i : Nat => q.getOne i) is).map (s, ·) := by
  obtain ⟨cs, h1, h2⟩ := key_take_total hk
  have hrec : mapRes q.pq.reconstruct cs = mapRes (fun i : Nat => npGet q.codes i >>= q.pq.reconstruct) is := by
    clear * - h2
    induction h2 with
    | nil => rfl
    | cons a _ ih => rw [mapRes, mapRes, ih, npGet_nat.mpr a]; rfl
  unfold QArr.embeddingAll
  rw [h1]
  show (do
    let out ← mapRes q.pq.reconstruct cs
    match q.norms with
    | none => return (s, out)
    | some norms => do
      let ns ← key.take norms
      return (s, List.zipWith scale ns.2 out)) = _
  cases hn : q.norms with
  | none =>
    have : (fun i : Nat => q.getOne i) = fun i : Nat => npGet q.codes i >>= q.pq.reconstruct := by
      funext i
      unfold QArr.getOne
      rw [hn]
      cases npGet q.codes (i : Int) with
      | error e => rfl
      | ok c =>
        show (q.pq.reconstruct c >>= fun out => pure out) = q.pq.reconstruct c
        cases q.pq.reconstruct c <;> rfl
    rw [this, hrec]
    cases mapRes (fun i : Nat => npGet q.codes i >>= q.pq.reconstruct) is <;> rfl
  | some norms =>
    have hl := hq.norms norms hn
    rw [← hl] at hk
    obtain ⟨ns, h3, h4⟩ := key_take_total hk
    dsimp only
    rw [h3]
    have : ∀ i ∈ is, q.getOne (i : Nat) = (npGet q.codes i >>= q.pq.reconstruct) >>= fun out =>
        npGet norms i >>= fun n => .ok (scale n out) := by
      intro i _
      unfold QArr.getOne
      rw [hn]
      cases npGet q.codes (i : Int) with
      | error e => rfl
      | ok c => rfl
    rw [mapRes_congr this, hrec]
    show (mapRes (fun i : Nat => npGet q.codes i >>= q.pq.reconstruct) is >>= fun out =>
      .ok (s, List.zipWith scale ns out)) = _
    clear * - h4
    suffices h : mapRes (fun i : Nat => npGet q.codes i >>= q.pq.reconstruct) is >>=
        (fun out => .ok (List.zipWith scale ns out)) =
        mapRes (fun i : Nat => (npGet q.codes i >>= q.pq.reconstruct) >>= fun out =>
          npGet norms i >>= fun n => .ok (scale n out)) is by
      rw [← h]
      cases mapRes (fun i : Nat => npGet q.codes i >>= q.pq.reconstruct) is <;> rfl
    induction h4 with
    | nil => rfl
    | @cons i n is ns a _ ih =>
      rw [mapRes, mapRes, ← ih, npGet_nat.mpr a]
      cases npGet q.codes i >>= q.pq.reconstruct with
      | error e => rfl
      | ok w =>
        cases mapRes (fun i : Nat => npGet q.codes i >>= q.pq.reconstruct) is with
        | error e => rfl
        | ok ws => rfl

theorem areRows_of {q : QArr K} (hq : QWF q) {is : List Nat} {rows : List (List K)}
    (h : mapRes (fun i : Nat => q.getOne i) is = .ok rows) : AreRows q is rows.flatten := by
  have h2 := mapRes_ok.mp h
  have hrow : ∀ (k i : Nat), is[k]? = some i → ∃ r, rows[k]? = some r ∧ q.getOne (i : Nat) = .ok r := by
    intro k i hi
    obtain ⟨hk, hi⟩ := List.getElem?_eq_some_iff.mp hi
    have hk' : k < rows.length := by rw [← h2.length_eq]; exact hk
    have := (List.forall₂_iff_get.mp h2).2 k hk hk'
    refine ⟨rows[k], List.getElem?_eq_getElem hk', ?_⟩
    rw [← hi]
    exact this
  have hlen : ∀ r ∈ rows, r.length = q.pq.reconstructedLen := by
    intro r hr
    obtain ⟨k, hk, rfl⟩ := List.getElem_of_mem hr
    have := (List.forall₂_iff_get.mp h2).2 k (by rw [h2.length_eq]; exact hk) hk
    exact getOne_length (s := .quant q) hq this
  refine ⟨by rw [flatten_const_length hlen, h2.length_eq], fun k i hi => ?_⟩
  obtain ⟨r, h3, h4⟩ := hrow k i hi
  have : (rows.flatten.drop (k * q.pq.reconstructedLen)).take q.pq.reconstructedLen = r := by
    have hr := hlen r (List.mem_of_getElem? h3)
    refine List.ext_getElem? fun t => ?_
    by_cases ht : t < q.pq.reconstructedLen
    · rw [List.getElem?_take_of_lt ht, List.getElem?_drop, flatten_const_getElem? hlen h3 ht]
    · rw [List.getElem?_eq_none (by rw [List.length_take]; omega), List.getElem?_eq_none (by omega)]
  rw [this]
  obtain ⟨j, h5, h6⟩ := (qGetOne_ok hq).mp h4
  have := npIndex_ok.mp h5
  have : j = i := by omega
  rw [← this]
  exact h6

end

/-! ### Memory -/

section
variable {K : Type} [NumOps K]
variable {P : Nat → Nat → Prop} {h h' : Heap K} {base : Nat}

omit [NumOps K] in
theorem Refines.writeIn {v : View} {xs ys : List K} (ho : Owned base h v xs) (hl : ys.length = xs.length)
    (hP : ∀ i ∈ v.idxs, P v.loc i) :
    Refines P h (HM.write v ys) (.ok ()) (fun h' _ _ => Owned base h' v ys) := by
  obtain ⟨h1, a, b, c⟩ := write_owned ho hl hP
  exact ⟨_, _, a, b, c⟩

theorem projectAll_refines {pq : HPQ} (hw : PQWF (pq.val h)) {o : HArr} {rows : List (List K)}
    (ho : Owned base h o.view rows.flatten) (hlen : ∀ r ∈ rows, r.length = pq.reconstructedLen)
    (hP : ∀ i ∈ o.view.idxs, P o.view.loc i) (hc : pq.projection ≠ none → o.view.contiguous = true) :
    Refines P h (pq.projectAll rows.length o) (.ok (rows.map (projOf (pq.val h))))
      (fun h' a b => a = o ∧ Owned base h' o.view b.flatten) := by
  unfold HPQ.projectAll projOf
  have hproj : (pq.val h).projection = pq.projection.map (HMat.val h) := rfl
  cases hp : pq.projection with
  | none =>
    rw [hproj, hp]
    dsimp only [Option.map]
    rw [List.map_id']
    exact Refines.pure ⟨rfl, ho⟩
  | some p =>
    rw [hproj, hp]
    have hrl := hw.proj (p.val h) (by rw [hproj, hp]; rfl)
    simp only [hc (by rw [hp]; simp), Bool.true_eq_false, if_false]
    refine Refines.step hm_look_bind (.refl _ _) ?_
    refine Refines.step hm_read_bind (.refl _ _) ?_
    rw [ho.read, splitRows_flatten _ rows hlen]
    refine Refines.bind (r := .ok ()) (g := fun _ => .ok (rows.map (projectRow (p.val h))))
      (Refines.writeIn ho ?_ hP) ?_
    · rw [flatten_const_length hlen, flatten_const_length (s := pq.reconstructedLen), List.length_map]
      intro r hr
      obtain ⟨r, _, rfl⟩ := List.mem_map.mp hr
      unfold projectRow
      rw [List.length_map, hrl]
      unfold PQ.reconstructedLen HPQ.reconstructedLen HPQ.val
      simp
    · intro h2 _ _ _ _ ho2
      exact Refines.pure ⟨rfl, ho2⟩

omit [NumOps K] in
theorem gathered {pq : HPQ} (hw : PQWF (pq.val h)) {codes : List (List UInt8)} {rows : List (List K)}
    (hg : mapRes (pq.val h).gather codes = .ok rows) :
    rows.length = codes.length ∧ ∀ r ∈ rows, r.length = pq.reconstructedLen := by
  refine ⟨mapRes_length hg, fun r hr => ?_⟩
  have h2 := mapRes_ok.mp hg
  obtain ⟨t, ht, rfl⟩ := List.getElem_of_mem hr
  exact gather_len' hw ((List.forall₂_iff_get.mp h2).2 t (by rw [h2.length_eq]; exact ht) ht)

theorem mapRes_reconstruct (pq : PQ K) (codes : List (List UInt8)) :
    mapRes pq.reconstruct codes = mapRes pq.gather codes >>= fun rows => .ok (rows.map (projOf pq)) := by
  have : pq.reconstruct = fun c => (pq.gather c).map (projOf pq) := funext (reconstruct_map pq)
  rw [this, mapRes_mapE]
  cases mapRes pq.gather codes <;> rfl

omit [NumOps K] in
theorem Refines.allocC (hf : Frame P base h) (xs : List K) :
    Refines P h (HM.alloc xs) (.ok xs) (fun h' a b => Owned base h' a b ∧ a.contiguous = true) :=
  ⟨_, _, rfl, le_append P h _, alloc_owned hf.len xs, contiguous_range _ _⟩

/-- `reconstruct` into a fresh array -/
theorem reconstructAll_refines (hf : Frame P base h) {pq : HPQ} (hs : Safe P h pq.views) (hw : PQWF (pq.val h))
    {codes : List (List UInt8)} (hc : ∀ c ∈ codes, c.length = pq.quantizers.length) (s : List Nat) :
    Refines P h (pq.reconstructAll pq.quantizers.length s codes none) (mapRes (pq.val h).reconstruct codes)
      (fun h' a b => a.shape = s ++ [pq.reconstructedLen] ∧ Owned base h' a.view b.flatten) := by
  have hq : (pq.val h).quantizers.length = pq.quantizers.length := by unfold HPQ.val; simp
  have hga := gatherAll_eq hw.subs (codes := codes) (by rw [hq]; exact hc)
  rw [hq] at hga
  rw [mapRes_reconstruct]
  unfold HPQ.reconstructAll
  dsimp only
  refine Refines.step hm_look_bind (.refl _ _) ?_
  rw [hga]
  cases hg : mapRes (pq.val h).gather codes with
  | error e => exact ⟨.error e, h, rfl, .refl _ _, rfl⟩
  | ok rows =>
    obtain ⟨g1, g2⟩ := gathered hw hg
    show Refines P h (HM.lift (.ok rows.flatten) >>= _) (.ok (rows.map (projOf (pq.val h)))) _
    refine Refines.step (h' := h) (m' := HM.alloc rows.flatten >>= _) (hm_bind_ok rfl) (.refl _ _) ?_
    refine Refines.bind (r := .ok rows.flatten) (g := fun _ => .ok (rows.map (projOf (pq.val h))))
      (Refines.allocC hf _) ?_
    rintro h1 v b hle hb ⟨ho, hcv⟩
    cases hb
    rw [← HPQ.val_le hs hle] at hw ⊢
    rw [← g1]
    refine (projectAll_refines (o := ⟨s ++ [pq.reconstructedLen], v⟩) hw ho g2 (fun i _ => hf.new _ _ ho.base)
      (fun _ => hcv)).mono ?_
    rintro h2 a b _ _ ⟨rfl, h3⟩
    exact ⟨rfl, h3⟩

omit [NumOps K] in
theorem drop_last_shape (s : List Nat) (d : Nat) : (s ++ [d]).dropLast = s ∧ (s ++ [d]).getLast? = some d := by
  simp

/-- `reconstruct` into a given array -/
theorem reconstructOut_refines {pq : HPQ} (hv : Safe P h pq.views) (hw : PQWF (pq.val h)) {codes : List (List UInt8)}
    (hc : ∀ c ∈ codes, c.length = pq.quantizers.length) {s : List Nat} {o : HArr}
    (hs : o.shape = s ++ [pq.reconstructedLen]) (hb : Buffer h o.view (codes.length * pq.reconstructedLen))
    (hP : ∀ i ∈ o.view.idxs, P o.view.loc i) (hcont : pq.projection ≠ none → o.view.contiguous = true) :
    Refines P h (pq.reconstructAll pq.quantizers.length s codes (some o))
      (mapRes (pq.val h).reconstruct codes) (fun h' a b => a = o ∧ Owned 0 h' o.view b.flatten) := by
  have hq : (pq.val h).quantizers.length = pq.quantizers.length := by unfold HPQ.val; simp
  have hga := gatherAll_eq hw.subs (codes := codes) (by rw [hq]; exact hc)
  rw [hq] at hga
  rw [mapRes_reconstruct]
  unfold HPQ.reconstructAll
  dsimp only
  rw [hs, (drop_last_shape _ _).1, (drop_last_shape _ _).2, if_neg (not_not.mpr rfl)]
  dsimp only
  rw [if_neg (not_not.mpr rfl)]
  refine Refines.step (h' := h) (m' := _) hm_look_bind (.refl _ _) ?_
  rw [hga]
  cases hg : mapRes (pq.val h).gather codes with
  | error e => exact ⟨.error e, h, rfl, .refl _ _, rfl⟩
  | ok rows =>
    obtain ⟨g1, g2⟩ := gathered hw hg
    show Refines P h (HM.lift (.ok rows.flatten) >>= _) (.ok (rows.map (projOf (pq.val h)))) _
    refine Refines.step (h' := h) (m' := HM.alloc rows.flatten >>= _) (hm_bind_ok rfl) (.refl _ _) ?_
    refine Refines.step (h' := h ++ [⟨rows.flatten, true⟩]) (m' := _)
      (hm_bind_ok (a := ⟨h.length, List.range rows.flatten.length⟩) rfl) (le_append _ _ _) ?_
    refine Refines.step hm_read_bind (.refl _ _) ?_
    rw [alloc_read]
    have hle := le_append P h ⟨rows.flatten, true⟩
    have hb1 := hb.le hle
    refine Refines.bind (r := .ok ()) (g := fun _ => .ok (rows.map (projOf (pq.val h))))
      (Refines.writeIn hb1.owned (by
        rw [read_length hb1.valid, hb1.len, flatten_const_length g2, g1]) hP) ?_
    rintro h1 _ _ hle1 _ ho
    rw [← HPQ.val_le hv (hle.trans hle1)] at hw ⊢
    rw [← g1]
    exact projectAll_refines hw ho g2 hP hcont

/-- The multiplication with the norms -/
theorem scaleAll_refines {o : HArr} {d : Nat} {rows : List (List K)} (ho : Owned base h o.view rows.flatten)
    (hlen : ∀ r ∈ rows, r.length = d) (hP : ∀ i ∈ o.view.idxs, P o.view.loc i) {fs : List K}
    (hf : fs.length = rows.length) :
    Refines P h (do
        let rows := splitRows rows.length d (← HM.read o.view)
        HM.write o.view (List.zipWith scale fs rows).flatten
        return o) (.ok (List.zipWith scale fs rows))
      (fun h' a b => a = o ∧ Owned base h' o.view b.flatten) := by
  refine Refines.step hm_read_bind (.refl _ _) ?_
  rw [ho.read, splitRows_flatten _ rows hlen]
  refine Refines.bind (r := .ok ()) (g := fun _ => .ok (List.zipWith scale fs rows)) (Refines.writeIn ho ?_ hP) ?_
  · rw [flatten_const_length hlen, flatten_const_length (s := d), List.length_zipWith, hf, min_self]
    intro r hr
    obtain ⟨k, hk, rfl⟩ := List.getElem_of_mem hr
    rw [List.getElem_zipWith]
    unfold scale
    rw [List.length_map]
    exact hlen _ (List.getElem_mem _)
  · intro h2 _ _ _ _ ho2
    exact Refines.pure ⟨rfl, ho2⟩

theorem reconstructed {pq : HPQ} (hw : PQWF (pq.val h)) {codes : List (List UInt8)} {rows : List (List K)}
    (hg : mapRes (pq.val h).reconstruct codes = .ok rows) :
    rows.length = codes.length ∧ ∀ r ∈ rows, r.length = pq.reconstructedLen := by
  refine ⟨mapRes_length hg, fun r hr => ?_⟩
  rw [mapRes_reconstruct] at hg
  obtain ⟨us, h1, hg⟩ := res_bind_inv hg
  cases hg
  obtain ⟨u, hu, rfl⟩ := List.mem_map.mp hr
  have hul := (gathered hw h1).2 u hu
  unfold projOf
  cases hp : (pq.val h).projection with
  | none => exact hul
  | some p =>
    unfold projectRow
    rw [List.length_map, hw.proj p hp]
    unfold PQ.reconstructedLen HPQ.reconstructedLen HPQ.val
    simp

theorem embeddingAll_step {q : HQArr} (hs : Safe P h q.views) (hw : QWF (q.val h)) {key : Key} {out : Option HArr}
    {s is : List Nat} (hk : KeySel q.codes.length key s is)
    {R : Heap K → HArr → List (List K) → Prop}
    (hrec : ∀ codes : List (List UInt8), codes.length = is.length → (∀ c ∈ codes, c.length = q.pq.quantizers.length) →
      Refines P h (q.pq.reconstructAll q.pq.quantizers.length s codes out) (mapRes (q.pq.val h).reconstruct codes) R)
    (hown : ∀ h' a b, R h' a b → Owned base h' a.view b.flatten ∧ ∀ i ∈ a.view.idxs, P a.view.loc i)
    {R' : Heap K → HArr → List (List K) → Prop}
    (hR : ∀ h' h'' a b b', R h' a b → Owned base h'' a.view b'.flatten → R' h'' a b') :
    Refines P h (q.embeddingAll key out) ((q.val h).embeddingAll key) (fun h' a b => b.1 = s ∧ R' h' a b.2) := by
  have hpq : (q.val h).pq = q.pq.val h := rfl
  have hcodes : (q.val h).codes = q.codes := rfl
  have hql : q.qlen = q.pq.quantizers.length := by
    have := hw.qlen
    rw [hpq] at this
    have h2 : (q.pq.val h).quantizers.length = q.pq.quantizers.length := by unfold HPQ.val; simp
    rw [h2] at this
    exact this
  obtain ⟨cs, h1, h2⟩ := key_take_total hk
  have hmem : ∀ c ∈ cs, c.length = q.pq.quantizers.length := by
    intro c hc
    obtain ⟨t, ht, rfl⟩ := List.getElem_of_mem hc
    have := (List.forall₂_iff_get.mp h2).2 t (by rw [h2.length_eq]; exact ht) ht
    rw [← hql]
    exact hw.codes _ (List.mem_of_getElem? this)
  unfold HQArr.embeddingAll QArr.embeddingAll
  rw [hcodes, h1, hpq, hql]
  refine Refines.step (h' := h) (hm_bind_ok rfl) (.refl _ _) ?_
  show Refines P h (q.pq.reconstructAll q.pq.quantizers.length s cs out >>= _)
    (mapRes (q.pq.val h).reconstruct cs >>= _) _
  refine Refines.bind (hrec cs h2.length_eq.symm hmem) ?_
  intro h4 a rows hle hrows hr
  obtain ⟨ho, hP⟩ := hown _ _ _ hr
  obtain ⟨hl, hrl⟩ := reconstructed hw.pq hrows
  have hnorms : (q.val h).norms = q.norms.map h.read := rfl
  rw [hnorms]
  cases hn : q.norms with
  | none => exact Refines.pure ⟨rfl, hR _ _ _ _ _ hr ho⟩
  | some v =>
    have hvm : v ∈ q.views := by unfold HQArr.views; rw [hn]; simp
    dsimp only [Option.map]
    refine Refines.step hm_read_bind (.refl _ _) ?_
    rw [hs.read hle hvm]
    have hnl : (h.read v).length = q.codes.length := hw.norms _ (by rw [hnorms, hn]; rfl)
    rw [← hnl] at hk
    obtain ⟨ns, k1, k2⟩ := key_take_total hk
    rw [k1]
    have hfac : normFactors s cs.length (s, ns) = .ok ns := by unfold normFactors; rw [if_pos rfl]
    refine Refines.step (h' := h4) (hm_bind_ok rfl) (.refl _ _) ?_
    rw [hfac]
    refine Refines.step (h' := h4) (hm_bind_ok rfl) (.refl _ _) ?_
    rw [← hl]
    have hfl : ns.length = rows.length := by rw [hl, ← k2.length_eq, ← h2.length_eq]
    obtain ⟨x, h5, e1, e2, e3⟩ := scaleAll_refines ho hrl hP hfl
    refine ⟨x, h5, e1, e2, ?_⟩
    cases x with
    | error e => exact e3.elim
    | ok a' =>
      obtain ⟨e4, e5⟩ : a' = a ∧ Owned base h5 a.view (List.zipWith scale ns rows).flatten := e3
      subst e4
      exact ⟨rfl, hR _ _ _ _ _ hr e5⟩

theorem embeddingAll_refines (hf : Frame P base h) {q : HQArr} (hs : Safe P h q.views) (hw : QWF (q.val h)) {key : Key}
    {s is : List Nat} (hk : KeySel q.codes.length key s is) :
    Refines P h (q.embeddingAll key none) ((q.val h).embeddingAll key)
      (fun h' a b => b.1 = s ∧ a.shape = s ++ [q.pq.reconstructedLen] ∧ Owned base h' a.view b.2.flatten) := by
  refine embeddingAll_step (base := base) hs hw hk
    (R := fun h' a b => a.shape = s ++ [q.pq.reconstructedLen] ∧ Owned base h' a.view b.flatten)
    (R' := fun h' a b => a.shape = s ++ [q.pq.reconstructedLen] ∧ Owned base h' a.view b.flatten)
    (fun codes _ hc => reconstructAll_refines hf (hs.mono fun v hv => by
      unfold HQArr.views; exact List.mem_append_left _ hv) hw.pq hc s)
    (fun h' a b hr => ⟨hr.2, fun i _ => hf.new _ _ hr.2.base⟩) (fun _ _ _ _ _ hr ho => ⟨hr.1, ho⟩)

theorem embeddingOut_refines {q : HQArr} (hs : Safe P h q.views) (hw : QWF (q.val h)) {key : Key}
    {s is : List Nat} (hk : KeySel q.codes.length key s is) {o : HArr}
    (hsh : o.shape = s ++ [q.pq.reconstructedLen]) (hb : Buffer h o.view (is.length * q.pq.reconstructedLen))
    (hP : ∀ i ∈ o.view.idxs, P o.view.loc i) (hcont : q.pq.projection ≠ none → o.view.contiguous = true) :
    Refines P h (q.embeddingAll key (some o)) ((q.val h).embeddingAll key)
      (fun h' a b => b.1 = s ∧ a = o ∧ Owned 0 h' o.view b.2.flatten) := by
  refine embeddingAll_step (base := 0) hs hw hk
    (R := fun h' a b => a = o ∧ Owned 0 h' o.view b.flatten)
    (R' := fun h' a b => a = o ∧ Owned 0 h' o.view b.flatten)
    (fun codes hl hc => reconstructOut_refines (hs.mono fun v hv => by
      unfold HQArr.views; exact List.mem_append_left _ hv) hw.pq hc hsh (by rw [hl]; exact hb) hP hcont)
    ?_ ?_
  · rintro h' a b ⟨rfl, ho⟩
    exact ⟨ho, hP⟩
  · rintro h' h'' a b b' ⟨rfl, _⟩ ho
    exact ⟨rfl, ho⟩

end

end FF
