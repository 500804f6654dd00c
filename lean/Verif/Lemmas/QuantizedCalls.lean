import Verif.Lemmas.Quantized
import Verif.Lemmas.HeapCalls
/-!
# Lemmas about `QuantizedArray.embedding` on memory
-/

namespace FF

section
variable {K : Type} [NumOps K] {h : Heap K} {q : HQArr}

theorem mapRes_total {α β : Type} {f : α → Res β} {xs : List α} (h : ∀ x ∈ xs, ∃ y, f x = .ok y) :
    ∃ ys, mapRes f xs = .ok ys := by
  induction xs with
  | nil => exact ⟨[], rfl⟩
  | cons x xs ih =>
    obtain ⟨y, hy⟩ := h x (by simp)
    obtain ⟨ys, hys⟩ := ih fun z hz => h z (List.mem_cons_of_mem _ hz)
    exact ⟨y :: ys, by rw [mapRes, hy, hys]; rfl⟩

theorem getOne_coded {q : QArr K} (hq : QWF q) {i : Nat} {c : List UInt8} (hc : q.codes[i]? = some c) :
    (∃ v, q.getOne i = .ok v) ↔ ∀ x ∈ c, x.toNat < q.pq.nCentroids := by
  have hmem := List.mem_of_getElem? hc
  have hcl : c.length = q.pq.quantizers.length := by rw [hq.codes c hmem, hq.qlen]
  constructor
  · rintro ⟨v, hv⟩ x hx
    obtain ⟨c', w, h1, h2, _⟩ := qGetOne_iff.mp hv
    rw [npGet_nat, hc] at h1
    cases h1
    obtain ⟨_, parts, h3, _⟩ := reconstruct_ok.mp h2
    obtain ⟨j, hj, rfl⟩ := List.getElem_of_mem hx
    have hj' : j < q.pq.quantizers.length := by omega
    obtain ⟨c', p, k1, k2, k3⟩ := forall₂_zip_parts hcl h3 (List.getElem?_eq_getElem hj')
    rw [List.getElem?_eq_getElem hj] at k1
    cases k1
    have := (List.getElem?_eq_some_iff.mp k3).1
    rw [hq.cents _ (List.getElem_mem hj')] at this
    exact this
  · intro hx
    have hrec : ∃ w, q.pq.reconstruct c = .ok w := by
      have : ∃ parts, mapRes (fun qc : List (List K) × UInt8 => npGet qc.1 (qc.2.toNat : Int))
          (q.pq.quantizers.zip c) = .ok parts := by
        refine mapRes_total fun qc hqc => ?_
        obtain ⟨h1, h2⟩ := List.of_mem_zip hqc
        have := hx _ h2
        rw [← hq.cents _ h1] at this
        exact ⟨_, npGet_nat.mpr (List.getElem?_eq_getElem this)⟩
      obtain ⟨parts, hp⟩ := this
      refine ⟨_, reconstruct_ok.mpr ⟨hcl, parts, ?_, rfl⟩⟩
      exact (mapRes_ok.mp hp).imp fun _ _ h => npGet_nat.mp h
    obtain ⟨w, hw⟩ := hrec
    cases hn : q.norms with
    | none => exact ⟨w, qGetOne_iff.mpr ⟨c, w, npGet_nat.mpr hc, hw, by rw [hn]⟩⟩
    | some ns =>
      have hl := hq.norms ns hn
      have hi := (List.getElem?_eq_some_iff.mp hc).1
      have : i < ns.length := by omega
      exact ⟨scale ns[i] w, qGetOne_iff.mpr ⟨c, w, npGet_nat.mpr hc, hw, by
        rw [hn]
        exact ⟨_, npGet_nat.mpr (List.getElem?_eq_getElem this), rfl⟩⟩⟩

theorem rows_total {q : QArr K} (hq : QWF q) {key : Key} {s is : List Nat} (hk : KeySel q.codes.length key s is)
    (hc : RowsCoded q is) : ∃ rows, mapRes (fun i : Nat => q.getOne i) is = .ok rows := by
  refine mapRes_total fun i hi => ?_
  have := List.getElem?_eq_getElem (keySel_lt hk i hi)
  exact (getOne_coded hq this).mpr (hc i hi _ this)

theorem rows_error {q : QArr K} (hq : QWF q) {is : List Nat} (hc : ¬ RowsCoded q is) : mapRes (fun i : Nat => q.getOne i) is = .error .indexError := by
  cases hm : mapRes (fun i : Nat => q.getOne i) is with
  | error e =>
    obtain ⟨i, _, hi⟩ := mapRes_err hm
    rw [qGetOne_err hi]
  | ok rows =>
    refine absurd (fun i hi c hcc => ?_) hc
    have h2 := mapRes_ok.mp hm
    obtain ⟨k, hk, rfl⟩ := List.getElem_of_mem hi
    have := (List.forall₂_iff_get.mp h2).2 k hk (by rw [← h2.length_eq]; exact hk)
    exact (getOne_coded hq hcc).mp ⟨_, this⟩

/-- The codes that a key selects, and what becomes of them -/
theorem embedding_codes (hw : QWF (q.val h)) {key : Key} {s is : List Nat} (hk : KeySel q.codes.length key s is) :
    ∃ cs, key.take q.codes = .ok (s, cs) ∧ List.Forall₂ (fun i c => q.codes[i]? = some c) is cs ∧
      (q.pq.val h).gatherAll q.qlen cs = (mapRes (q.pq.val h).gather cs).map List.flatten ∧
      (RowsCoded (q.val h) is → ∃ rows, mapRes (q.pq.val h).gather cs = .ok rows) ∧
      (¬ RowsCoded (q.val h) is → mapRes (q.pq.val h).gather cs = .error .indexError) := by
  obtain ⟨cs, h1, h2⟩ := key_take_total hk
  have hpq : (q.val h).pq = q.pq.val h := rfl
  have hcs : ∀ c ∈ cs, c.length = (q.pq.val h).quantizers.length := by
    intro c hc
    obtain ⟨t, ht, rfl⟩ := List.getElem_of_mem hc
    have := (List.forall₂_iff_get.mp h2).2 t (by rw [h2.length_eq]; exact ht) ht
    rw [← hpq, ← hw.qlen]
    exact hw.codes _ (List.mem_of_getElem? this)
  have hql : q.qlen = (q.pq.val h).quantizers.length := hw.qlen
  have hk' : KeySel (q.val h).codes.length key s is := hk
  have hval : (q.val h).embeddingAll key = mapRes (q.pq.val h).gather cs >>= fun us =>
      match q.norms with
      | none => .ok (s, us.map (projOf (q.pq.val h)))
      | some v => key.take (h.read v) >>= fun ns =>
        .ok (s, List.zipWith scale ns.2 (us.map (projOf (q.pq.val h)))) := by
    unfold QArr.embeddingAll
    have hcodes : (q.val h).codes = q.codes := rfl
    have hnorms : (q.val h).norms = q.norms.map h.read := rfl
    rw [hcodes, h1, hpq, hnorms]
    show (mapRes (q.pq.val h).reconstruct cs >>= fun out =>
      match q.norms.map h.read with
      | none => .ok (s, out)
      | some norms => key.take norms >>= fun ns => .ok (s, List.zipWith scale ns.2 out)) = _
    rw [mapRes_reconstruct]
    cases mapRes (q.pq.val h).gather cs with
    | error e => rfl
    | ok us => cases q.norms <;> rfl
  rw [getOne_at hw hk'] at hval
  refine ⟨cs, h1, h2, by rw [hql]; exact gatherAll_eq hw.pq.subs hcs, fun hc => ?_, fun hc => ?_⟩
  · obtain ⟨rows, hr⟩ := rows_total hw hk' hc
    rw [hr] at hval
    cases hg : mapRes (q.pq.val h).gather cs with
    | ok us => exact ⟨us, rfl⟩
    | error e => rw [hg] at hval; cases hval
  · rw [rows_error hw hc] at hval
    cases hg : mapRes (q.pq.val h).gather cs with
    | error e => rw [hg] at hval; cases hval; rfl
    | ok us =>
      rw [hg] at hval
      cases hn : q.norms with
      | none => rw [hn] at hval; cases hval
      | some v =>
        have hnl : (h.read v).length = q.codes.length := hw.norms _ (by
          show q.norms.map h.read = _
          rw [hn]; rfl)
        rw [← hnl] at hk
        obtain ⟨ns, k1, _⟩ := key_take_total hk
        rw [hn] at hval
        have hval' : (Except.error PyErr.indexError : Res (List Nat × List (List K))) = (key.take (h.read v) >>= fun ns =>
          .ok (s, List.zipWith scale ns.2 (us.map (projOf (q.pq.val h))))) := hval
        rw [k1] at hval'
        cases hval'

/-- `embedding` with a fitting `out` up to the point where `out` is written -/
theorem embedding_out_start (key : Key) {s : List Nat} {cs : List (List UInt8)} (h1 : key.take q.codes = .ok (s, cs))
    {rows : List (List K)} (hg : (q.pq.val h).gatherAll q.qlen cs = .ok rows.flatten) {o : HArr}
    (hs : o.shape = s ++ [q.pq.reconstructedLen]) {e : PyErr} {h' : Heap K}
    (he : (HM.write o.view rows.flatten >>= fun _ => q.pq.projectAll cs.length o) (h ++ [⟨rows.flatten, true⟩]) =
      (.error e, h')) :
    q.embeddingAll key (some o) h = (.error e, h') := by
  unfold HQArr.embeddingAll
  rw [h1, hm_lift_ok]
  refine hm_bind_error ?_
  unfold HPQ.reconstructAll
  dsimp only
  rw [hs, (drop_last_shape _ _).1, (drop_last_shape _ _).2, if_neg (not_not.mpr rfl)]
  dsimp only
  rw [if_neg (not_not.mpr rfl), hm_look_bind, hg, hm_lift_ok,
    show (HM.alloc rows.flatten >>= _) h = _ from
      hm_bind_ok (m := HM.alloc rows.flatten) (a := ⟨h.length, List.range rows.flatten.length⟩)
        (h' := h ++ [⟨rows.flatten, true⟩]) rfl,
    hm_read_bind, alloc_read]
  exact he

omit [NumOps K] in
theorem flatten_take {rows : List (List K)} {d k : Nat} {r : List K} (hl : ∀ r ∈ rows, r.length = d)
    (hr : rows[k]? = some r) : (rows.flatten.drop (k * d)).take d = r := by
  have hrl := hl r (List.mem_of_getElem? hr)
  refine List.ext_getElem? fun t => ?_
  by_cases ht : t < d
  · rw [List.getElem?_take_of_lt ht, List.getElem?_drop, flatten_const_getElem? hl hr ht]
  · rw [List.getElem?_eq_none (by rw [List.length_take]; omega), List.getElem?_eq_none (by omega)]

theorem gather_concat (hw : QWF (q.val h)) {c : List UInt8} (hc : c ∈ q.codes) {u : List K}
    (hg : (q.pq.val h).gather c = .ok u) : IsConcat (q.pq.val h) c u := by
  let q' : QArr K := { q.val h with pq := { q.pq.val h with projection := none } }
  have hq' : QWF q' := { hw with proj := by intro p hp; cases hp }
  have hr : q'.pq.reconstruct c = .ok u := by
    rw [reconstruct_map]
    have : q'.pq.gather c = (q.pq.val h).gather c := rfl
    rw [this, hg]
    rfl
  obtain ⟨u', h1, h2⟩ := (reconstruct_spec hq' (codes := c) hc).mp hr
  have : u = u' := h2
  rw [this]
  exact h1

omit [NumOps K] in
theorem maskTake_map {α β : Type} (f : α → β) : ∀ (bs : List Bool) (xs : List α),
    maskTake bs (xs.map f) = (maskTake bs xs).map f
  | [], xs => by cases xs <;> rfl
  | b :: bs, [] => by cases b <;> rfl
  | true :: bs, x :: xs => by
    show f x :: maskTake bs (xs.map f) = _
    rw [maskTake_map f bs xs]
    rfl
  | false :: bs, x :: xs => maskTake_map f bs xs

omit [NumOps K] in
theorem forall₂_get_map {α β : Type} (f : α → β) {xs : List α} {is : List Nat} {ys : List α}
    (h : List.Forall₂ (fun i y => xs[i]? = some y) is ys) :
    List.Forall₂ (fun i y => (xs.map f)[i]? = some y) is (ys.map f) := by
  induction h with
  | nil => exact .nil
  | cons a _ ih => exact .cons (by rw [List.getElem?_map, a]; rfl) ih

omit [NumOps K] in
/-- Indexing a changed list -/
theorem key_take_map {α β : Type} (f : α → β) (key : Key) (xs : List α) :
    key.take (xs.map f) = (key.take xs).map fun p => (p.1, p.2.map f) := by
  cases hx : key.take xs with
  | ok p =>
    obtain ⟨s, ys⟩ := p
    obtain ⟨is, h1, h2⟩ := key_take_sel hx
    have h1' : KeySel (xs.map f).length key s is := by rw [List.length_map]; exact h1
    obtain ⟨zs, h3, h4⟩ := key_take_total h1'
    rw [h3, forall₂_get_eq h4 (forall₂_get_map f h2)]
    rfl
  | error e =>
    rw [key_take_error hx]
    refine key_take_none fun s is hk => ?_
    rw [List.length_map] at hk
    obtain ⟨ys, h1, _⟩ := key_take_total hk
    rw [h1] at hx
    cases hx

omit [NumOps K] in
theorem gatherAll_one (pq : PQ K) (ds : List UInt8) : pq.gatherAll 1 (ds.map fun c => [c]) =
    pq.gatherAll pq.quantizers.length (ds.map fun c => List.replicate pq.quantizers.length c) := by
  have hz : ∀ (qs : List (List (List K))) (c : UInt8), qs.zip (List.replicate qs.length c) = qs.map fun q => (q, c) := by
    intro qs c
    induction qs with
    | nil => rfl
    | cons q qs ih => rw [List.length_cons, List.replicate_succ, List.zip_cons_cons, ih]; rfl
  have hf : ∀ (qs : List (List (List K))) (c : UInt8), (qs.flatMap fun q => [c].map fun c => (q, c)) =
      qs.map fun q => (q, c) := by
    intro qs c
    induction qs with
    | nil => rfl
    | cons q qs ih => rw [List.flatMap_cons, ih]; rfl
  have hpairs : ∀ c : UInt8, (if 1 = pq.quantizers.length then pq.quantizers.zip [c]
      else pq.quantizers.flatMap fun q => [c].map fun c => (q, c)) = pq.quantizers.map fun q => (q, c) := by
    intro c
    split
    · rename_i h1
      rw [← hz, ← h1]
      rfl
    · exact hf _ c
  unfold PQ.gatherAll
  dsimp only
  rw [if_neg (fun h => h.2.1 rfl), if_neg (fun h => h.1 rfl), mapRes_comp, mapRes_comp, List.length_map, List.length_map]
  simp only [hpairs, if_true, hz]

theorem reconstructAll_congr (pq : HPQ) {m n : Nat} (s : List Nat) {cs ds : List (List UInt8)} (hl : cs.length = ds.length)
    (hg : (pq.val h).gatherAll m cs = (pq.val h).gatherAll n ds) (out : Option HArr) :
    pq.reconstructAll m s cs out h = pq.reconstructAll n s ds out h := by
  unfold HPQ.reconstructAll
  cases out with
  | none => dsimp only; rw [hm_look_bind, hm_look_bind, hg, hl]
  | some o =>
    have hfail : ∀ (e : PyErr) (f g : Unit → HM K HArr), (HM.fail e >>= f) h = (HM.fail e >>= g) h := by
      intro e f g
      rw [hm_bind_error (m := HM.fail e) (f := f) (x := e) (h' := h) rfl,
        hm_bind_error (m := HM.fail e) (f := g) (x := e) (h' := h) rfl]
    dsimp only
    split
    · exact hfail _ _ _
    · cases o.shape.getLast? with
      | none => rfl
      | some d =>
        dsimp only
        split
        · exact hfail _ _ _
        · rw [hm_look_bind, hm_look_bind, hg, hl]

end

end FF
