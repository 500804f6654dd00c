import Verif.Lemmas.QuantizedCalls
import Verif.Props.C29
/-!
# C71: `QuantizedArray.embedding` for every key and output array

A key (integer, nested lists or array of integers, boolean array, slice) selects positions and arranges them in an
array.  The result has one more dimension: the vectors of these rows.  With `out` they are written to `out`, which is
returned.
-/

namespace FF

section
variable {K : Type} [NumOps K] {h : Heap K} {q : HQArr}

/-! ### Results -/

/-- Without `out`: a fresh array of the shape of the key and one dimension more, holding the vectors of the selected
rows.  No existing array changes. -/
theorem C71_fresh (hv : Valids h q.views) (hw : QWF (q.val h)) (key : Key) (s is : List Nat)
    (hk : KeySel q.codes.length key s is) (hc : RowsCoded (q.val h) is) :
    ∃ a h', q.embeddingAll key none h = (.ok a, h') ∧ a.shape = s ++ [q.pq.reconstructedLen] ∧
      AreRows (q.val h) is (h'.read a.view) ∧ Buffer h' a.view (is.length * q.pq.reconstructedLen) ∧
      h.length ≤ a.view.loc ∧ Heap.Le Never h h' := by
  have hk' : KeySel (q.val h).codes.length key s is := hk
  obtain ⟨rows, hr⟩ := rows_total hw hk' hc
  obtain ⟨x, h', e1, e2, e3⟩ := embeddingAll_refines (frame_new h) hv.new hw hk
  rw [getOne_at hw hk', hr] at e3
  cases x with
  | error e => exact e3.elim
  | ok a =>
    obtain ⟨_, e4, e5⟩ : s = s ∧ a.shape = s ++ [q.pq.reconstructedLen] ∧ Owned h.length h' a.view rows.flatten := e3
    have hrows := areRows_of hw hr
    have hd : (q.val h).pq.reconstructedLen = q.pq.reconstructedLen := nCols_val (h := h) (.quant q)
    refine ⟨a, h', e1, e4, by rw [e5.read]; exact hrows, ⟨e5.valid, e5.nodup, e5.writable, ?_⟩, e5.base, e2.never⟩
    rw [← read_length e5.valid, e5.read, hrows.1, hd]

/-- With an `out` of this shape: `out` is returned and holds the same vectors, and nothing else changes.  With a projection
`out` has to be contiguous. -/
theorem C71_out_partial (hv : Valids h q.views) (hw : QWF (q.val h)) (key : Key) (s is : List Nat)
    (hk : KeySel q.codes.length key s is) (hc : RowsCoded (q.val h) is) (o : HArr)
    (hs : o.shape = s ++ [q.pq.reconstructedLen]) (hb : Buffer h o.view (is.length * q.pq.reconstructedLen))
    (ha : Apart o.view q.views) (hcont : q.pq.projection ≠ none → o.view.contiguous = true) :
    ∃ h', q.embeddingAll key (some o) h = (.ok o, h') ∧ AreRows (q.val h) is (h'.read o.view) ∧
      Heap.Le o.view.cells h h' := by
  have hk' : KeySel (q.val h).codes.length key s is := hk
  obtain ⟨rows, hr⟩ := rows_total hw hk' hc
  obtain ⟨x, h', e1, e2, e3⟩ := embeddingOut_refines (ha.safe hv) hw hk hs hb (fun i hi => ⟨rfl, hi⟩) hcont
  rw [getOne_at hw hk', hr] at e3
  cases x with
  | error e => exact e3.elim
  | ok a =>
    obtain ⟨_, rfl, e5⟩ : s = s ∧ a = o ∧ Owned 0 h' o.view rows.flatten := e3
    exact ⟨h', e1, by rw [e5.read]; exact areRows_of hw hr, e2⟩

/-- The vectors are determined by the positions: every way to ask for the same rows gives the same numbers. -/
theorem C71_unique (q : QArr K) (is : List Nat) (xs ys : List K) (hx : AreRows q is xs) (hy : AreRows q is ys) :
    xs = ys := by
  refine List.ext_getElem? fun t => ?_
  by_cases hd : q.pq.reconstructedLen = 0
  · have h1 := hx.1
    have h2 := hy.1
    rw [hd, Nat.mul_zero] at h1 h2
    rw [List.length_eq_zero_iff.mp h1, List.length_eq_zero_iff.mp h2]
  · by_cases ht : t < is.length * q.pq.reconstructedLen
    · have hk : t / q.pq.reconstructedLen < is.length := Nat.div_lt_of_lt_mul (by rw [Nat.mul_comm]; exact ht)
      have h1 := hx.2 _ _ (List.getElem?_eq_getElem hk)
      have h2 := hy.2 _ _ (List.getElem?_eq_getElem hk)
      have := isRow_unique h1 h2
      have h3 := congrArg (fun l => l[t % q.pq.reconstructedLen]?) this
      have hm := Nat.mod_lt t (Nat.pos_of_ne_zero hd)
      simp only [List.getElem?_take_of_lt hm, List.getElem?_drop] at h3
      rwa [Nat.mul_comm, Nat.div_add_mod] at h3
    · rw [List.getElem?_eq_none (by rw [hx.1]; omega), List.getElem?_eq_none (by rw [hy.1]; omega)]

/-! ### Exceptions -/

/-- A key that selects nothing raises, `ValueError` for a slice and `IndexError` otherwise, and nothing changes. -/
theorem C71_key (key : Key) (hk : ∀ s is, ¬ KeySel q.codes.length key s is) (out : Option HArr) :
    q.embeddingAll key out h = (.error (match key with | .slice _ => .valueError | _ => .indexError), h) := by
  unfold HQArr.embeddingAll
  rw [hm_bind_error (h' := h) (x := key.err) (by rw [key_take_none hk]; rfl)]
  cases key <;> rfl

/-- A code that is not the number of a centroid raises `IndexError`, and nothing changes, `out` included. -/
theorem C71_codes (hw : QWF (q.val h)) (key : Key) (s is : List Nat)
    (hk : KeySel q.codes.length key s is) (hc : ¬ RowsCoded (q.val h) is) (out : Option HArr)
    (hs : ∀ o, out = some o → o.shape = s ++ [q.pq.reconstructedLen]) :
    q.embeddingAll key out h = (.error .indexError, h) := by
  obtain ⟨cs, h1, _, h3, _, h4⟩ := embedding_codes hw hk
  have hg : (q.pq.val h).gatherAll q.qlen cs = .error .indexError := by rw [h3, h4 hc]; rfl
  unfold HQArr.embeddingAll
  rw [h1, hm_lift_ok]
  refine hm_bind_error ?_
  unfold HPQ.reconstructAll
  cases out with
  | none =>
    dsimp only
    rw [hm_look_bind, hg]
    rfl
  | some o =>
    dsimp only
    rw [hs o rfl, (drop_last_shape _ _).1, (drop_last_shape _ _).2, if_neg (not_not.mpr rfl)]
    dsimp only
    rw [if_neg (not_not.mpr rfl), hm_look_bind, hg]
    rfl

/-- An `out` of another shape raises `AssertionError`, one without dimensions for a single row `IndexError`; nothing
changes. -/
theorem C71_shape (key : Key) (s is : List Nat) (hk : KeySel q.codes.length key s is) (o : HArr)
    (hs : o.shape ≠ s ++ [q.pq.reconstructedLen]) :
    q.embeddingAll key (some o) h = (.error (if o.shape = [] ∧ s = [] then .indexError else .assertionError), h) := by
  obtain ⟨cs, h1, _⟩ := key_take_total hk
  unfold HQArr.embeddingAll
  rw [h1, hm_lift_ok]
  refine hm_bind_error ?_
  unfold HPQ.reconstructAll
  dsimp only
  by_cases hd : o.shape.dropLast ≠ s
  · rw [if_pos hd, if_neg (by rintro ⟨a, b⟩; rw [a, b] at hd; exact hd rfl)]
    rfl
  · rw [if_neg hd]
    rw [not_not] at hd
    cases hl : o.shape.getLast? with
    | none =>
      have : o.shape = [] := List.getLast?_eq_none_iff.mp hl
      rw [this] at hd
      rw [if_pos ⟨this, hd.symm⟩]
      rfl
    | some d =>
      have hne : o.shape ≠ [] := by intro h0; rw [h0] at hl; cases hl
      rw [if_neg (fun h0 => hne h0.1)]
      dsimp only
      rw [if_pos]
      · rfl
      · rintro rfl
        refine hs ?_
        rw [← hd]
        exact (List.dropLast_append_getLast? _ hl).symm

/-- A read-only `out` raises `ValueError`; no array changes. -/
theorem C71_readonly (hw : QWF (q.val h)) (key : Key) (s is : List Nat)
    (hk : KeySel q.codes.length key s is) (hc : RowsCoded (q.val h) is) (o : HArr)
    (hs : o.shape = s ++ [q.pq.reconstructedLen]) (b : Buf K) (hb : h[o.view.loc]? = some b) (hro : b.writable = false) :
    ∃ h', q.embeddingAll key (some o) h = (.error .valueError, h') ∧ Heap.Le Never h h' := by
  obtain ⟨cs, h1, _, h3, h4, _⟩ := embedding_codes hw hk
  obtain ⟨rows, hg⟩ := h4 hc
  have hg' : (q.pq.val h).gatherAll q.qlen cs = .ok rows.flatten := by rw [h3, hg]; rfl
  refine ⟨h ++ [⟨rows.flatten, true⟩], embedding_out_start key h1 hg' hs (hm_bind_error ?_), le_append _ _ _⟩
  unfold HM.write
  rw [List.getElem?_append_left (List.getElem?_eq_some_iff.mp hb).1, hb]
  simp only [hro, Bool.false_eq_true, if_false]

/-- With a projection and an `out` that is not contiguous, the call raises `ValueError` after it has overwritten `out`
with vectors that are not projected. -/
theorem C71_strided_refuted (hw : QWF (q.val h)) (key : Key) (s is : List Nat)
    (hk : KeySel q.codes.length key s is) (hc : RowsCoded (q.val h) is) (o : HArr)
    (hs : o.shape = s ++ [q.pq.reconstructedLen]) (hb : Buffer h o.view (is.length * q.pq.reconstructedLen))
    (hp : q.pq.projection ≠ none) (hcont : o.view.contiguous = false) :
    ∃ h', q.embeddingAll key (some o) h = (.error .valueError, h') ∧ Heap.Le o.view.cells h h' ∧
      ∀ (k i : Nat) c, is[k]? = some i → q.codes[i]? = some c → IsConcat (q.pq.val h) c
        (((h'.read o.view).drop (k * q.pq.reconstructedLen)).take q.pq.reconstructedLen) := by
  obtain ⟨cs, h1, h2, h3, h4, _⟩ := embedding_codes hw hk
  obtain ⟨rows, hg⟩ := h4 hc
  have hg' : (q.pq.val h).gatherAll q.qlen cs = .ok rows.flatten := by rw [h3, hg]; rfl
  obtain ⟨g1, g2⟩ := gathered hw.pq hg
  have hle := le_append (K := K) o.view.cells h ⟨rows.flatten, true⟩
  obtain ⟨h', e1, e2, e3⟩ := write_buffer (hb.le hle) (ys := rows.flatten) (by
    rw [flatten_const_length g2, g1, h2.length_eq])
  refine ⟨h', embedding_out_start key h1 hg' hs ?_, hle.trans e2, ?_⟩
  · rw [hm_bind_ok e1]
    unfold HPQ.projectAll
    cases hq : q.pq.projection with
    | none => exact absurd hq hp
    | some p =>
      dsimp only
      rw [if_pos hcont]
      rfl
  · intro k i c hi hcode
    rw [e3]
    have hk1 := (List.getElem?_eq_some_iff.mp hi).1
    have hk2 : k < cs.length := by rw [← h2.length_eq]; exact hk1
    have hk3 : k < rows.length := by rw [g1]; exact hk2
    have a1 := (List.forall₂_iff_get.mp h2).2 k hk1 hk2
    rw [List.get_eq_getElem, (List.getElem?_eq_some_iff.mp hi).2, hcode] at a1
    cases a1
    have a2 := (List.forall₂_iff_get.mp (mapRes_ok.mp hg)).2 k hk2 hk3
    have := flatten_take g2 (List.getElem?_eq_getElem hk3)
    rw [this]
    exact gather_concat hw (List.mem_of_getElem? hcode) a2

/-! ### Indexing -/

/-- `storage[key]`: `TypeError` for `None`, a storage for a slice, and `embedding(key)` otherwise. -/
theorem C71_getitem : q.getItem none h = (.error .typeError, h) ∧
    (∀ sl, q.getItem (some (.slice sl)) h =
      match HStorage.slice (.quant q) sl h with
      | (.ok s, h') => (.ok (.storage s), h')
      | (.error e, h') => (.error e, h')) ∧
    ∀ key, (∀ sl, key ≠ .slice sl) → q.getItem (some key) h =
      match q.embeddingAll key none h with
      | (.ok a, h') => (.ok (.array a), h')
      | (.error e, h') => (.error e, h') := by
  refine ⟨rfl, fun sl => ?_, fun key hk => ?_⟩
  · unfold HQArr.getItem
    dsimp only
    rw [hm_bind]
    rcases HStorage.slice (.quant q) sl h with ⟨_ | _, _⟩ <;> rfl
  · unfold HQArr.getItem
    cases key with
    | slice sl => exact absurd rfl (hk sl)
    | int i => dsimp only; rw [hm_bind]; rcases q.embeddingAll (.int i) none h with ⟨_ | _, _⟩ <;> rfl
    | arr a b => dsimp only; rw [hm_bind]; rcases q.embeddingAll (.arr a b) none h with ⟨_ | _, _⟩ <;> rfl
    | mask m => dsimp only; rw [hm_bind]; rcases q.embeddingAll (.mask m) none h with ⟨_ | _, _⟩ <;> rfl

/-! ### Storages whose parts do not fit

The constructor does not compare the codes with the quantizers or the norms.  Numpy broadcasts. -/

/-- One column of codes for several quantizers: the code is used for every quantizer. -/
theorem C71_one_column (cs : List UInt8) (h1 : q.qlen = 1) (hcs : q.codes = cs.map fun c => [c]) (key : Key)
    (out : Option HArr) :
    q.embeddingAll key out h = HQArr.embeddingAll { q with
      qlen := q.pq.quantizers.length
      codes := cs.map fun c => List.replicate q.pq.quantizers.length c } key out h := by
  have hq : (q.pq.val h).quantizers.length = q.pq.quantizers.length := by unfold HPQ.val; simp
  unfold HQArr.embeddingAll
  dsimp only
  rw [hcs, h1, key_take_map, key_take_map]
  cases key.take cs with
  | error e => rfl
  | ok p =>
    show (HM.lift (.ok (p.1, p.2.map fun c => [c])) >>= _) h = (HM.lift (.ok (p.1, p.2.map fun c =>
      List.replicate q.pq.quantizers.length c)) >>= _) h
    rw [hm_lift_ok, hm_lift_ok]
    dsimp only
    rw [List.length_map, List.length_map, hm_bind, hm_bind, reconstructAll_congr q.pq p.1
      (ds := p.2.map fun c => List.replicate q.pq.quantizers.length c) (n := q.pq.quantizers.length)
      (by rw [List.length_map, List.length_map]) (by rw [gatherAll_one, hq]) out]

/-- Other numbers of columns are an `IndexError` for every key, unless there is only one quantizer. -/
theorem C71_columns (h1 : q.qlen ≠ q.pq.quantizers.length) (h2 : q.qlen ≠ 1) (h3 : q.pq.quantizers.length ≠ 1) (key : Key)
    (s is : List Nat) (hk : KeySel q.codes.length key s is) :
    q.embeddingAll key none h = (.error .indexError, h) := by
  obtain ⟨cs, k1, _⟩ := key_take_total hk
  unfold HQArr.embeddingAll
  rw [k1, hm_lift_ok]
  refine hm_bind_error ?_
  unfold HPQ.reconstructAll
  have hq : (q.pq.val h).quantizers.length = q.pq.quantizers.length := by unfold HPQ.val; simp
  have hg : (q.pq.val h).gatherAll q.qlen cs = .error .indexError := by
    unfold PQ.gatherAll
    dsimp only
    rw [hq, if_pos ⟨h1, h2, h3⟩]
    rfl
  dsimp only
  rw [hm_look_bind, hg]
  rfl

/-- One norm for several rows: slices that select it scale all vectors by it. -/
theorem C71_one_norm (v : View) (i : Nat) (hn : q.norms = some v) (hi : v.idxs = [i]) (sl : PySlice)
    (hsl : KeySel 1 (.slice sl) [1] [0]) (out : Option HArr) :
    q.embeddingAll (.slice sl) out h = HQArr.embeddingAll { q with
      norms := some ⟨v.loc, List.replicate q.codes.length i⟩ } (.slice sl) out h := by
  unfold HQArr.embeddingAll
  dsimp only
  have h0 : sl.step ≠ some 0 := hsl.2.1
  cases hk : Key.take (.slice sl) q.codes with
  | error e => rfl
  | ok p =>
    obtain ⟨s, cs⟩ := p
    obtain ⟨is, k1, k2⟩ := key_take_sel hk
    have hs : s = [cs.length] := by rw [k1.1, k2.length_eq]
    rw [hm_lift_ok, hm_lift_ok, hm_bind, hm_bind]
    rcases q.pq.reconstructAll q.qlen s cs out h with ⟨_ | a, h'⟩
    · rfl
    · dsimp only
      rw [hn]
      dsimp only
      rw [hm_read_bind, hm_read_bind]
      have hread : (h'.read v = [] ∧ h'.read ⟨v.loc, List.replicate q.codes.length i⟩ = []) ∨
          ∃ x, h'.read v = [x] ∧ h'.read ⟨v.loc, List.replicate q.codes.length i⟩ = List.replicate q.codes.length x := by
        unfold Heap.read
        rw [hi]
        dsimp only
        cases h'[v.loc]? with
        | none => exact .inl ⟨rfl, rfl⟩
        | some b =>
          dsimp only
          cases hb : b.data[i]? with
          | none => exact .inl ⟨by simp [hb], by simp [hb]⟩
          | some x => exact .inr ⟨x, by simp [hb], by simp [hb]⟩
      rcases hread with ⟨r1, r2⟩ | ⟨x, r1, r2⟩
      · rw [r1, r2]
      · obtain ⟨ys, t1, t2⟩ := key_take_total (xs := [x]) hsl
        obtain ⟨_, rfl⟩ : True ∧ ys = [x] := by
          cases t2 with
          | cons a b => cases b; cases a; exact ⟨trivial, rfl⟩
        have k1' : KeySel (List.replicate q.codes.length x).length (.slice sl) s is := by
          rw [List.length_replicate]; exact k1
        obtain ⟨zs, t3, t4⟩ := key_take_total k1'
        have hz : zs = List.replicate cs.length x := by
          rw [← k2.length_eq, t4.length_eq]
          refine List.eq_replicate_of_mem fun z hz => ?_
          obtain ⟨t, ht, rfl⟩ := List.getElem_of_mem hz
          have := (List.forall₂_iff_get.mp t4).2 t (by rw [t4.length_eq]; exact ht) ht
          have := List.mem_of_getElem? this
          exact List.eq_of_mem_replicate this
        rw [r1, r2, t1, t3, hm_lift_ok, hm_lift_ok, hz]
        have f1 : normFactors s cs.length ([1], [x]) = .ok (List.replicate cs.length x) := by
          unfold normFactors
          dsimp only
          split
          · rename_i he
            rw [hs] at he
            have he : 1 = cs.length := by simpa using he
            rw [← he]
            rfl
          · rfl
        have f2 : normFactors s cs.length (s, List.replicate cs.length x) = .ok (List.replicate cs.length x) := by
          unfold normFactors
          rw [if_pos rfl]
        rw [f1, f2]

/-- Slices that select another number of norms than rows, and not just one norm: `out` is overwritten and the call
raises `ValueError`. -/
theorem C71_uneven_norms (hv : Valids h q.views) (v : View) (hn : q.norms = some v)
    (hw : QWF (({ q with norms := none } : HQArr).val h)) (sl : PySlice) (s is : List Nat)
    (hk : KeySel q.codes.length (.slice sl) s is) (hc : RowsCoded (q.val h) is) (s' js : List Nat)
    (hkn : KeySel v.idxs.length (.slice sl) s' js) (hne : js.length ≠ is.length) (h1 : js.length ≠ 1) (o : HArr)
    (hs : o.shape = s ++ [q.pq.reconstructedLen]) (hb : Buffer h o.view (is.length * q.pq.reconstructedLen))
    (ha : Apart o.view q.views) (hcont : q.pq.projection ≠ none → o.view.contiguous = true) :
    ∃ h', q.embeddingAll (.slice sl) (some o) h = (.error .valueError, h') ∧
      AreRows (({ q with norms := none } : HQArr).val h) is (h'.read o.view) ∧ Heap.Le o.view.cells h h' := by
  obtain ⟨h', e1, e2, e3⟩ := C71_out_partial (q := { q with norms := none }) (fun v hv' => hv v (by
    unfold HQArr.views at hv' ⊢
    simp only [Option.toList_none, List.append_nil] at hv'
    exact List.mem_append_left _ hv')) hw (.slice sl) s is hk hc o hs hb (fun v hv' => ha v (by
    unfold HQArr.views at hv' ⊢
    simp only [Option.toList_none, List.append_nil] at hv'
    exact List.mem_append_left _ hv')) hcont
  refine ⟨h', ?_, e2, e3⟩
  have hvm : v ∈ q.views := by unfold HQArr.views; rw [hn]; simp
  unfold HQArr.embeddingAll at e1 ⊢
  dsimp only at e1
  obtain ⟨cs, hk1, k2⟩ := key_take_total hk
  rw [hk1, hm_lift_ok] at e1
  rw [hk1, hm_lift_ok]
  rw [hm_bind] at e1 ⊢
  rcases hr : q.pq.reconstructAll q.qlen s cs (some o) h with ⟨_ | a, h2⟩
  · rw [hr] at e1; cases e1
  · rw [hr] at e1
    cases e1
    rw [hn]
    dsimp only
    rw [hm_read_bind]
    have hlen : (h'.read v).length = v.idxs.length := read_length ((hv v hvm).le e3)
    rw [← hlen] at hkn
    obtain ⟨ns, t1, t2⟩ := key_take_total hkn
    rw [t1, hm_lift_ok]
    have hf : normFactors s cs.length (s', ns) = .error .valueError := by
      unfold normFactors
      have g1 : s = [is.length] := hk.1
      have g2 : s' = [js.length] := hkn.1
      rw [if_neg (by rw [g1, g2]; simpa using hne)]
      have : ns.length ≠ 1 := by rw [← t2.length_eq]; exact h1
      match ns, this with
      | [], _ => rfl
      | [_], h => exact absurd rfl h
      | _ :: _ :: _, _ => rfl
    refine hm_bind_error ?_
    rw [hf]
    rfl

/-- Fewer norms than rows: for other keys `out` is overwritten and the call raises `IndexError`. -/
theorem C71_few_norms (hv : Valids h q.views) (v : View) (hn : q.norms = some v)
    (hw : QWF (({ q with norms := none } : HQArr).val h)) (key : Key) (s is : List Nat)
    (hk : KeySel q.codes.length key s is) (hc : RowsCoded (q.val h) is) (hkn : ∀ s is, ¬ KeySel v.idxs.length key s is) (o : HArr)
    (hs : o.shape = s ++ [q.pq.reconstructedLen]) (hb : Buffer h o.view (is.length * q.pq.reconstructedLen))
    (ha : Apart o.view q.views) (hcont : q.pq.projection ≠ none → o.view.contiguous = true) :
    ∃ h', q.embeddingAll key (some o) h = (.error .indexError, h') ∧
      AreRows (({ q with norms := none } : HQArr).val h) is (h'.read o.view) ∧ Heap.Le o.view.cells h h' := by
  have hw0 : PQWF (q.pq.val h) := hw.pq
  obtain ⟨h', e1, e2, e3⟩ := C71_out_partial (q := { q with norms := none }) (fun v hv' => hv v (by
    unfold HQArr.views at hv' ⊢
    simp only [Option.toList_none, List.append_nil] at hv'
    exact List.mem_append_left _ hv')) hw key s is hk hc o hs hb (fun v hv' => ha v (by
    unfold HQArr.views at hv' ⊢
    simp only [Option.toList_none, List.append_nil] at hv'
    exact List.mem_append_left _ hv')) hcont
  refine ⟨h', ?_, e2, e3⟩
  have hvm : v ∈ q.views := by unfold HQArr.views; rw [hn]; simp
  unfold HQArr.embeddingAll at e1 ⊢
  dsimp only at e1
  cases hk1 : key.take q.codes with
  | error e => rw [hk1] at e1; cases e1
  | ok p =>
    rw [hk1, hm_lift_ok] at e1
    rw [hm_lift_ok]
    rw [hm_bind] at e1 ⊢
    rcases hr : q.pq.reconstructAll q.qlen p.1 p.2 (some o) h with ⟨_ | a, h2⟩
    · rw [hr] at e1; cases e1
    · rw [hr] at e1
      cases e1
      rw [hn]
      dsimp only
      rw [hm_read_bind]
      have hlen : (h'.read v).length = v.idxs.length := read_length ((hv v hvm).le e3)
      rw [key_take_none (by rw [hlen]; exact hkn)]
      refine hm_bind_error ?_
      cases key with
      | slice sl =>
        have h0 : sl.step ≠ some 0 := hk.2.1
        obtain ⟨ys, hy⟩ := (C37_sequence (h'.read v) sl).2.1 h0
        have := key_take_none (xs := h'.read v) (by rw [hlen]; exact hkn)
        unfold Key.take at this
        dsimp only at this
        rw [hy] at this
        cases this
      | _ => rfl

end

/-! ### The hypotheses can be met -/

/-- The memory of `Sample.heapQ` with room for results and a read-only buffer -/
def Sample.heapQ' : Heap Rat :=
  Sample.heapQ ++ [⟨[9, 9, 9, 9, 9, 9, 9, 9, 9], true⟩, ⟨[1, 2, 3, 4], false⟩]

theorem Sample.hq_ok : Valids Sample.heapQ' Sample.hq.views ∧ QWF (Sample.hq.val Sample.heapQ') ∧
    ∀ is, (∀ i ∈ is, i < 2) → RowsCoded (Sample.hq.val Sample.heapQ') is := by
  have hviews : Sample.hq.views = [⟨0, [0]⟩, ⟨0, [1]⟩, ⟨0, [2]⟩, ⟨0, [3]⟩, ⟨1, [0, 1]⟩, ⟨1, [2, 3]⟩,
    ⟨2, [0, 1]⟩] := rfl
  refine ⟨?_, ⟨by decide, rfl, by decide +kernel, by decide +kernel, ?_, ?_, by decide, by decide, by decide⟩, ?_⟩
  · intro v hv
    rw [hviews] at hv
    simp only [List.mem_cons, List.not_mem_nil, or_false] at hv
    rcases hv with rfl | rfl | rfl | rfl | rfl | rfl | rfl <;> exact Sample.valid_of (by decide)
  · intro p hp
    cases hp
    exact ⟨by unfold Mat.WF; decide +kernel, rfl, rfl⟩
  · intro n hn
    cases hn
    decide +kernel
  · intro is _ i _ c hc x hx
    have := List.mem_of_getElem? hc
    have : c ∈ [[(0 : UInt8), 1], [1, 0]] := this
    show x.toNat < 2
    simp only [List.mem_cons, List.not_mem_nil, or_false] at this
    rcases this with rfl | rfl <;> simp only [List.mem_cons, List.not_mem_nil, or_false] at hx <;>
      rcases hx with rfl | rfl <;> decide

/-- Rows of `Sample.hq`: `[28, 22]` and `[39, 36]`.  The key `[[1], [-2]]` selects the last and the first. -/
example : KeySel Sample.hq.codes.length (.arr [2, 1] [1, -2]) [2, 1] [1, 0] ∧
    KeySel Sample.hq.codes.length (.mask [false, true]) [1] [1] ∧
    KeySel Sample.hq.codes.length (.int (-1)) [] [1] ∧
    (Sample.hq.val Sample.heapQ').getOne 0 = .ok [28, 22] ∧ (Sample.hq.val Sample.heapQ').getOne 1 = .ok [39, 36] ∧
    ((Sample.hq.embeddingAll (.arr [2, 1] [1, -2]) none Sample.heapQ').1 = .ok ⟨[2, 1, 2], ⟨6, [0, 1, 2, 3]⟩⟩) ∧
    (Sample.hq.embeddingAll (.arr [2, 1] [1, -2]) none Sample.heapQ').2[6]? = some ⟨[39, 36, 28, 22], true⟩ := by
  refine ⟨⟨rfl, .cons ⟨by decide, by decide⟩ (.cons ⟨by decide, by decide⟩ .nil)⟩, ⟨rfl, rfl, by simp, ?_⟩,
    ⟨rfl, 1, rfl, by decide, by decide⟩, by decide +kernel, by decide +kernel, by decide +kernel, by decide +kernel⟩
  intro j
  rcases j with _ | _ | j <;> simp

/-- Into an array of the shape `(2, 1, 2)` -/
example : Buffer Sample.heapQ' ⟨4, [1, 2, 3, 4]⟩ (2 * Sample.hq.pq.reconstructedLen) ∧
    Apart ⟨4, [1, 2, 3, 4]⟩ Sample.hq.views ∧ View.contiguous ⟨4, [1, 2, 3, 4]⟩ = true ∧
    (Sample.hq.embeddingAll (.arr [2, 1] [1, -2]) (some ⟨[2, 1, 2], ⟨4, [1, 2, 3, 4]⟩⟩) Sample.heapQ').2[4]? =
      some ⟨[9, 39, 36, 28, 22, 9, 9, 9, 9], true⟩ := by
  refine ⟨⟨Sample.valid_of (by decide), by decide, by intro b hb; cases hb; rfl, rfl⟩, ?_, by decide, by decide +kernel⟩
  intro v hv hl
  have hv : v ∈ [⟨0, [0]⟩, ⟨0, [1]⟩, ⟨0, [2]⟩, ⟨0, [3]⟩, ⟨1, [0, 1]⟩, ⟨1, [2, 3]⟩, (⟨2, [0, 1]⟩ : View)] := hv
  simp only [List.mem_cons, List.not_mem_nil, or_false] at hv
  rcases hv with rfl | rfl | rfl | rfl | rfl | rfl | rfl <;> cases hl

/-- A position outside, a mask of the wrong length, the wrong shape, no dimensions, a read-only array, a strided array -/
example : (Sample.hq.embeddingAll (.arr [1] [2]) none Sample.heapQ').1 = .error .indexError ∧
    (Sample.hq.embeddingAll (.mask [true]) none Sample.heapQ').1 = .error .indexError ∧
    (Sample.hq.embeddingAll (.slice ⟨none, none, some 0⟩) none Sample.heapQ').1 = .error .valueError ∧
    (Sample.hq.embeddingAll (.int 0) (some ⟨[1, 2], ⟨4, [0, 1]⟩⟩) Sample.heapQ').1 = .error .assertionError ∧
    (Sample.hq.embeddingAll (.int 0) (some ⟨[], ⟨4, [0]⟩⟩) Sample.heapQ').1 = .error .indexError ∧
    (Sample.hq.embeddingAll (.int 0) (some ⟨[2], ⟨5, [0, 1]⟩⟩) Sample.heapQ').1 = .error .valueError ∧
    (Sample.hq.embeddingAll (.arr [2] [0, 1]) (some ⟨[2, 2], ⟨4, [0, 2, 4, 6]⟩⟩) Sample.heapQ').1 = .error .valueError ∧
    (Sample.hq.embeddingAll (.arr [2] [0, 1]) (some ⟨[2, 2], ⟨4, [0, 2, 4, 6]⟩⟩) Sample.heapQ').2[4]? =
      some ⟨[11, 9, 14, 9, 12, 9, 13, 9, 9], true⟩ := by
  decide +kernel

/-- A code that is too large -/
example : ¬ RowsCoded (HQArr.val Sample.heapQ' { Sample.hq with codes := [[0, 1], [1, 7]] }) [1] ∧
    (HQArr.embeddingAll { Sample.hq with codes := [[0, 1], [1, 7]] } (.int 1) none Sample.heapQ').1 =
      .error .indexError := by
  refine ⟨fun h => ?_, by decide +kernel⟩
  exact absurd (h 1 (by simp) [1, 7] rfl 7 (by simp)) (by decide)

/-- One column of codes, three columns, one norm -/
example : (HQArr.embeddingAll { Sample.hq with qlen := 1, codes := [[1], [0]] } (.int 0) none Sample.heapQ').2[6]? =
      some ⟨[28, 24], true⟩ ∧
    (HQArr.embeddingAll { Sample.hq with qlen := 3, codes := [[1, 0, 0], [0, 0, 0]] } (.int 0) none Sample.heapQ').1 =
      .error .indexError ∧
    (HQArr.embeddingAll { Sample.hq with norms := some ⟨2, [1]⟩ } (.slice ⟨none, none, none⟩) none Sample.heapQ').2[6]? =
      some ⟨[42, 33, 39, 36], true⟩ ∧
    (HQArr.embeddingAll { Sample.hq with norms := some ⟨2, [1]⟩ } (.int 1) none Sample.heapQ').1 = .error .indexError ∧
    (HQArr.embeddingAll { Sample.hq with norms := some ⟨2, [1]⟩ } (.int 1) (some ⟨[2], ⟨4, [0, 1]⟩⟩)
      Sample.heapQ').2[4]? = some ⟨[13, 12, 9, 9, 9, 9, 9, 9, 9], true⟩ := by
  decide +kernel

/-- No norms at all: an error for all rows, behind which `out` has the rows without norms. -/
example : KeySel 0 (.slice ⟨none, none, none⟩) [0] [] ∧
    (HQArr.embeddingAll { Sample.hq with norms := some ⟨2, []⟩ } (.slice ⟨none, none, none⟩)
      (some ⟨[2, 2], ⟨4, [0, 1, 2, 3]⟩⟩) Sample.heapQ').1 = .error .valueError ∧
    (HQArr.embeddingAll { Sample.hq with norms := some ⟨2, []⟩ } (.slice ⟨none, none, none⟩)
      (some ⟨[2, 2], ⟨4, [0, 1, 2, 3]⟩⟩) Sample.heapQ').2[4]? = some ⟨[14, 11, 13, 12, 9, 9, 9, 9, 9], true⟩ := by
  refine ⟨?_, by decide +kernel, by decide +kernel⟩
  obtain ⟨is, h1, h2⟩ := key_take_sel (key := .slice ⟨none, none, none⟩) (xs := ([] : List Nat)) (s := [0]) (ys := [])
    (by decide +kernel)
  cases h2
  exact h1

example : KeySel 1 (.slice ⟨none, none, none⟩) [1] [0] ∧ ∀ s is, ¬ KeySel 1 (.int 1) s is := by
  refine ⟨?_, ?_⟩
  · obtain ⟨is, h1, h2⟩ := key_take_sel (key := .slice ⟨none, none, none⟩) (xs := [(7 : Nat)]) (s := [1]) (ys := [7])
      (by decide +kernel)
    have : is = [0] := by
      cases h2 with
      | @cons i _ _ _ a b =>
        cases b
        rcases i with _ | i
        · rfl
        · simp at a
    rw [this] at h1
    exact h1
  · rintro s is ⟨_, j, _, h1, h2⟩
    omega

/-- Indexing -/
example : (Sample.hq.getItem (some (.int (-1))) Sample.heapQ').2[6]? = some ⟨[39, 36], true⟩ := by
  decide +kernel

/-- Contiguous arrays are those whose elements follow each other in memory. -/
theorem C71_contiguous (v : View) : v.contiguous = true ↔
    ∀ (k : Nat) i j, v.idxs[k]? = some i → v.idxs[k + 1]? = some j → j = i + 1 := by
  have e : v.contiguous = true ↔ v.idxs = List.range' (v.idxs.headD 0) v.idxs.length := by
    unfold View.contiguous
    simp
  rw [e]
  constructor
  · intro h k i j h1 h2
    have n1 := (List.getElem?_eq_some_iff.mp h1).1
    have n2 := (List.getElem?_eq_some_iff.mp h2).1
    rw [h, List.getElem?_range' (by simpa using n1)] at h1
    rw [h, List.getElem?_range' (by simpa using n2)] at h2
    injection h1
    injection h2
    omega
  · intro h
    generalize v.idxs = l at h
    clear e
    cases l with
    | nil => rfl
    | cons a l =>
      show a :: l = List.range' a (l.length + 1)
      induction l generalizing a with
      | nil => rfl
      | cons b l ih =>
        have hb := h 0 a b rfl rfl
        rw [List.range'_succ, ih b fun k i j h1 h2 => h (k + 1) i j h1 h2, hb]
        simp

end FF
