import Verif.Lemmas.FastTextLoad
import Verif.Lemmas.Sim
/-! Writing fastText files. -/

namespace FF

/-! ### Writers of fixed bytes -/

/-- If `w` succeeds, then `P` and it has appended `bs`. -/
def WInv (w : Wr Unit) (P : Prop) (bs : Bytes) : Prop :=
  ∀ s s' u, w s = (.ok u, s') → P ∧ s' = s ++ bs

/-- `w` appends `bs` unless the file gets too long. -/
def WOk (w : Wr Unit) (bs : Bytes) : Prop :=
  ∀ s, (s ++ bs).length < maxSize → w s = (.ok (), s ++ bs)

theorem WInv.bind {w w' : Wr Unit} {P Q : Prop} {a b : Bytes} (h : WInv w P a) (h' : WInv w' Q b) :
    WInv (w >>= fun _ => w') (P ∧ Q) (a ++ b) := by
  intro s s' u hw
  obtain ⟨_, s1, k1, k2⟩ := wr_bind_inv hw
  obtain ⟨hp, rfl⟩ := h _ _ _ k1
  obtain ⟨hq, rfl⟩ := h' _ _ _ k2
  exact ⟨⟨hp, hq⟩, List.append_assoc _ _ _⟩

theorem len_left {s a b : Bytes} (h : (s ++ (a ++ b)).length < maxSize) : (s ++ a).length < maxSize := by
  rw [← List.append_assoc, List.length_append] at h
  exact lt_of_le_of_lt (Nat.le_add_right _ _) h

theorem WOk.bind {w w' : Wr Unit} {a b : Bytes} (h : WOk w a) (h' : WOk w' b) :
    WOk (w >>= fun _ => w') (a ++ b) := by
  intro s hs
  rw [wr_bind_ok (h s (len_left hs))]
  rw [← List.append_assoc] at hs ⊢
  exact h' _ hs

theorem WInv.bytes (bs : Bytes) : WInv (Wr.bytes bs) True bs :=
  fun _ _ _ h => ⟨trivial, (wr_bytes_inv h).1⟩

theorem WOk.bytes (bs : Bytes) : WOk (Wr.bytes bs) bs := fun _ h => wr_bytes_ok h

theorem WInv.signed {fs : List (Nat × Int)} (hw : ∀ f ∈ fs, 0 < f.1) (rest : Bytes) :
    WInv (writeSigned fs rest) (∀ f ∈ fs, signedOk f.1 f.2 = true)
      ((fs.flatMap fun f => sle f.1 f.2) ++ rest) := fun _ _ _ h => writeSigned_inv hw h

theorem WOk.signed {fs : List (Nat × Int)} (hw : ∀ f ∈ fs, 0 < f.1) (rest : Bytes)
    (h : ∀ f ∈ fs, signedOk f.1 f.2 = true) :
    WOk (writeSigned fs rest) ((fs.flatMap fun f => sle f.1 f.2) ++ rest) :=
  fun _ hs => writeSigned_ok hw h hs

theorem WInv.encode (w : PyStr) :
    WInv (Wr.lift (encode w) >>= fun b => Wr.bytes b) (w.any isSurrogate = false) (utf8 w) :=
  fun _ _ _ h => writeStr_inv' h
where
  writeStr_inv' {s : PyStr} {b b' : Bytes} {u : Unit}
      (h : (Wr.lift (FF.encode s) >>= fun b => Wr.bytes b) b = (.ok u, b')) :
      s.any isSurrogate = false ∧ b' = b ++ utf8 s := by
    obtain ⟨x, s1, h1, h2⟩ := wr_bind_inv h
    obtain ⟨hx, rfl⟩ := wr_lift_inv h1
    obtain ⟨rfl, hs⟩ := encode_ok hx
    obtain ⟨rfl, _⟩ := wr_bytes_inv h2
    exact ⟨hs, rfl⟩

/-! ### The vocabulary -/

theorem ftWordBytes_eq (w : PyStr) : ftWordBytes (w, 0) =
    utf8 w ++ ([0] ++ (List.flatMap (fun f => sle f.1 f.2) [(8, (0 : Int))] ++ [] ++
      (List.flatMap (fun f => sle f.1 f.2) [(1, (0 : Int))] ++ []))) := by
  have e : ([0] : Bytes) = sle 1 0 := rfl
  unfold ftWordBytes
  simp only [List.append_assoc, List.flatMap_cons, List.flatMap_nil, List.append_nil]
  rw [← e]

/-- The body of the loop in `writeFtVocab`. -/
def ftWriteWord (w : PyStr) : Wr Unit := do
  let b ← Wr.lift (encode w)
  Wr.bytes b
  Wr.bytes [0]
  writeSigned [(8, 0)]
  writeSigned [(1, 0)]

theorem ftWriteWord_inv (w : PyStr) :
    WInv (ftWriteWord w) (w.any isSurrogate = false) (ftWordBytes (w, 0)) := by
  intro s s' u h
  unfold ftWriteWord at h
  obtain ⟨b, s1, k1, k2⟩ := wr_bind_inv h
  obtain ⟨hb, rfl⟩ := wr_lift_inv k1
  obtain ⟨rfl, hs⟩ := encode_ok hb
  obtain ⟨_, h2⟩ := (WInv.bytes (utf8 w)).bind ((WInv.bytes [0]).bind
    ((WInv.signed (fs := [(8, 0)]) (by decide) []).bind (WInv.signed (fs := [(1, 0)]) (by decide) []))) _ _ _ k2
  rw [← ftWordBytes_eq] at h2
  exact ⟨hs, h2⟩

theorem ftWriteWord_ok {w : PyStr} (hw : w.any isSurrogate = false) :
    WOk (ftWriteWord w) (ftWordBytes (w, 0)) := by
  intro s hs
  rw [ftWordBytes_eq] at hs ⊢
  unfold ftWriteWord
  rw [encode_eq hw, wr_bind_ok (wr_lift_ok _ _)]
  exact (WOk.bytes (utf8 w)).bind ((WOk.bytes [0]).bind
    ((WOk.signed (fs := [(8, 0)]) (by decide) [] (by decide)).bind
      (WOk.signed (fs := [(1, 0)]) (by decide) [] (by decide)))) s hs

theorem forWr_inv {α : Type} {f : α → Wr Unit} {P : α → Prop} {enc : α → Bytes}
    (h : ∀ x, WInv (f x) (P x) (enc x)) (xs : List α) :
    WInv (forWr f xs) (∀ x ∈ xs, P x) (xs.flatMap enc) := by
  induction xs with
  | nil =>
    intro s s' u hw
    obtain ⟨_, rfl⟩ := wr_pure_inv hw
    exact ⟨by simp, by simp⟩
  | cons x xs ih =>
    intro s s' u hw
    obtain ⟨⟨h1, h2⟩, h3⟩ := (h x).bind ih _ _ _ hw
    exact ⟨by simpa using ⟨h1, h2⟩, h3⟩

theorem forWr_ok {α : Type} {f : α → Wr Unit} {enc : α → Bytes} {xs : List α}
    (h : ∀ x ∈ xs, WOk (f x) (enc x)) : WOk (forWr f xs) (xs.flatMap enc) := by
  induction xs with
  | nil => intro s hs; simp [forWr]
  | cons x xs ih =>
    exact (h x (by simp)).bind (ih fun y hy => h y (List.mem_cons_of_mem _ hy))

theorem writeFtVocab_inv (v : Vocab) :
    WInv (writeFtVocab v) (v.len < 2 ^ 31 ∧ ∀ w ∈ v.words, w.any isSurrogate = false)
      (sle 4 v.len ++ sle 4 v.len ++ sle 4 0 ++ sle 8 0 ++ sle 8 (-1) ++
        (v.words.map fun w => (w, (0 : Int))).flatMap ftWordBytes) := by
  intro s s' u h
  obtain ⟨⟨h1, _, h2⟩, h3⟩ := (WInv.signed (fs := [(4, (v.len : Int)), (4, (v.len : Int)), (4, 0)])
    (by simp) []).bind ((WInv.signed (fs := [(8, 0), (8, -1)]) (by decide) []).bind
      (forWr_inv ftWriteWord_inv v.words)) _ _ _ h
  refine ⟨⟨?_, h2⟩, ?_⟩
  · have := (signedOk_iff.mp (h1 (4, (v.len : Int)) (by simp))).2
    simp only at this
    omega
  · rw [h3, List.flatMap_map]
    simp only [List.flatMap_cons, List.flatMap_nil, List.append_assoc, List.append_nil]

theorem writeFtVocab_ok {v : Vocab} (hl : v.len < 2 ^ 31)
    (hw : ∀ w ∈ v.words, w.any isSurrogate = false) :
    WOk (writeFtVocab v) (sle 4 v.len ++ sle 4 v.len ++ sle 4 0 ++ sle 8 0 ++ sle 8 (-1) ++
        (v.words.map fun w => (w, (0 : Int))).flatMap ftWordBytes) := by
  have h := (WOk.signed (fs := [(4, (v.len : Int)), (4, (v.len : Int)), (4, 0)])
    (by simp) [] (by
      intro x hx
      simp only [List.mem_cons, List.not_mem_nil, or_false] at hx
      rcases hx with rfl | rfl | rfl
      · exact int32_nat hl
      · exact int32_nat hl
      · decide)).bind ((WOk.signed (fs := [(8, 0), (8, -1)]) (by decide) [] (by decide)).bind
      (forWr_ok (xs := v.words) fun w h => ftWriteWord_ok (hw w h)))
  have e : (sle 4 v.len ++ sle 4 v.len ++ sle 4 0 ++ sle 8 0 ++ sle 8 (-1) ++
        (v.words.map fun w => (w, (0 : Int))).flatMap ftWordBytes) =
      (List.flatMap (fun f => sle f.1 f.2) [(4, (v.len : Int)), (4, (v.len : Int)), (4, 0)] ++ []) ++
      ((List.flatMap (fun f => sle f.1 f.2) [(8, (0 : Int)), (8, -1)] ++ []) ++
        v.words.flatMap fun w => ftWordBytes (w, 0)) := by
    rw [List.flatMap_map]
    simp only [List.flatMap_cons, List.flatMap_nil, List.append_assoc, List.append_nil]
  rw [e]
  exact h

section
variable {K : Type} [NumOps K]

/-! ### The rows of the words -/

theorem ftRaw_unique {ix : FtIndexer} {n : Nat} {m : Mat K} (hm : m.WF) {norms : Option (List K)}
    {i : Nat} {w : PyStr} {v v' : List K} (h : FtRaw ix n m norms i w v)
    (h' : FtRaw ix n m norms i w v') : v = v' := by
  obtain ⟨is, row, sel, s, h1, h2, h3, h4, h5, h6⟩ := h
  obtain ⟨is', row', sel', s', h1', h2', h3', h4', h5', h6'⟩ := h'
  have := ftSubwords_unique h1 h1'
  subst this
  rw [h2] at h2'
  cases h2'
  have := forall₂_get_unique h3 h3'
  subst this
  have := isSum_unique h4 h4'
  subst this
  apply List.ext_getElem?
  intro t
  by_cases ht : t < m.cols
  · have hr : row.length = m.cols := hm _ (List.mem_of_getElem? h2)
    have hx := List.getElem?_eq_getElem (l := row) (i := t) (by omega)
    have hy := List.getElem?_eq_getElem (l := s) (i := t) (by rw [h4.1]; exact ht)
    have g := h6 t _ _ hx hy
    have g' := h6' t _ _ hx hy
    cases norms with
    | none => simp only at g g'; rw [g, g']
    | some ns =>
      simp only at g g'
      obtain ⟨c, hc, g⟩ := g
      obtain ⟨c', hc', g'⟩ := g'
      rw [hc] at hc'
      cases hc'
      rw [g, g']
  · rw [List.getElem?_eq_none (by omega), List.getElem?_eq_none (by omega)]

/-- Embeddings with a fastText vocabulary and a plain matrix. -/
structure FtEmb (e : Embeddings K) (ix : FtIndexer) (m : Mat K) : Prop where
  built : BuiltEmb e
  sub : e.vocab.sub = some (.ft ix)
  storage : e.storage = .nd m
  count : e.vocab.words.length < 2 ^ 63

omit [NumOps K] in
theorem FtEmb.rows {e : Embeddings K} {ix : FtIndexer} {m : Mat K} (h : FtEmb e ix m) :
    m.rows.length = e.vocab.words.length + ix.nBuckets := by
  have h1 := (embNew_iff.mp h.built.new).2.1
  rw [h.storage] at h1
  unfold Vocab.upperBound at h1
  rw [h.sub, h.built.vocab.len] at h1
  unfold Indexer.upperBound FtIndexer.upperBound at h1
  simp only at h1
  have h2 : (Storage.nd m).nRows = m.rows.length := rfl
  rw [h2] at h1
  omega

omit [NumOps K] in
theorem FtEmb.wf {e : Embeddings K} {ix : FtIndexer} {m : Mat K} (h : FtEmb e ix m) : m.WF := by
  have := h.built.storage
  rw [h.storage] at this
  exact this.1

omit [NumOps K] in
theorem FtEmb.shape {e : Embeddings K} {ix : FtIndexer} {m : Mat K} (h : FtEmb e ix m) :
    ShapeOk m.rows.length m.cols := by
  have := h.built.storage
  rw [h.storage] at this
  exact this.2

theorem ftWordRow_total {e : Embeddings K} {ix : FtIndexer} {m : Mat K} (h : FtEmb e ix m) {i : Nat}
    {w : PyStr} (hw : e.vocab.words[i]? = some w) (hs : w.any isSurrogate = false) :
    ∃ v, ftWordRow e (.ft ix) i w = .ok v ∧ FtRaw ix e.vocab.words.length m e.norms i w v := by
  obtain ⟨is, h1, h2, h3⟩ := ftSubwords_total h.built.vocab h.sub h.count hs
  have hi := (List.getElem?_eq_some_iff.mp hw).1
  have hrl := h.rows
  have hrow := List.getElem?_eq_getElem (l := m.rows) (i := i) (by omega)
  obtain ⟨sel, h4, h5⟩ := npTake_nat (xs := m.rows) (is := is) (fun j hj => by
    have := h3 j hj; omega)
  have hcols : ∀ r ∈ sel, r.length = m.cols := fun r hr => h.wf r (forall₂_get_mem h5 r hr)
  have hsum := addReduce_isSum hcols
  generalize hrr : m.rows[i]'(by omega) = row at hrow
  have hlr : row.length = m.cols := h.wf _ (List.mem_of_getElem? hrow)
  have hone : e.storage.getOne (i : Int) = .ok row := by
    rw [h.storage]; exact npGet_nat.mpr hrow
  have hmany : e.storage.getMany (is.map fun i : Nat => (i : Int)) = .ok sel := by
    rw [h.storage]; exact h4
  have hcol : e.storage.nCols = m.cols := by rw [h.storage]; rfl
  have key : ∀ emb : List K, applyNorm e.norms i
      (row.map fun x => NumOps.mul x (NumOps.ofNat (is.length + 1))) = .ok emb →
      ftWordRow e (.ft ix) i w = .ok (vsub emb (addReduce m.cols sel)) := by
    intro emb he
    unfold ftWordRow
    rw [h2, res_bind_ok, hone, res_bind_ok, List.length_map, he, res_bind_ok, hmany, res_bind_ok, hcol]
    rfl
  have hzip : ∀ (emb : List K) (t : Nat) x y, emb[t]? = some x → (addReduce m.cols sel)[t]? = some y →
      (vsub emb (addReduce m.cols sel))[t]? = some (NumOps.sub x y) := by
    intro emb t x y hx hy
    unfold vsub
    rw [List.getElem?_zipWith, hx, hy]
  have hlen : ∀ emb : List K, emb.length = m.cols → (vsub emb (addReduce m.cols sel)).length = m.cols := by
    intro emb he
    unfold vsub
    rw [List.length_zipWith, he, hsum.1]; simp
  cases hn : e.norms with
  | none =>
    rw [hn] at key
    refine ⟨_, key _ rfl, is, row, sel, _, h1, hrow, h5, hsum, hlen _ (by simpa using hlr), ?_⟩
    intro t x y hx hy
    exact hzip _ t _ y (by rw [List.getElem?_map, hx]; rfl) hy
  | some ns =>
    have hnl := ((embNew_iff.mp h.built.new).2.2 ns hn).2
    rw [h.built.vocab.len] at hnl
    have hc := List.getElem?_eq_getElem (l := ns) (i := i) (by omega)
    rw [hn] at key
    refine ⟨_, key (((row.map fun x => NumOps.mul x (NumOps.ofNat (is.length + 1)))).map
      fun x => NumOps.mul x (ns[i]'(by omega))) ?_, is, row, sel, _, h1, hrow, h5, hsum,
      hlen _ (by simpa using hlr), ?_⟩
    · unfold applyNorm
      simp only
      rw [npGet_nat.mpr hc, res_bind_ok]
      rfl
    · intro t x y hx hy
      refine ⟨_, hc, hzip _ t _ y (by rw [List.getElem?_map, List.getElem?_map, hx]; rfl) hy⟩

theorem ftWordRow_iff {e : Embeddings K} {ix : FtIndexer} {m : Mat K} (h : FtEmb e ix m) {i : Nat}
    {w : PyStr} (hw : e.vocab.words[i]? = some w) {v : List K} :
    ftWordRow e (.ft ix) i w = .ok v ↔
      w.any isSurrogate = false ∧ FtRaw ix e.vocab.words.length m e.norms i w v := by
  constructor
  · intro hr
    have hs : w.any isSurrogate = false := by
      unfold ftWordRow at hr
      obtain ⟨is, h1, _⟩ := res_bind_inv hr
      exact ft_no_surrogate h1
    obtain ⟨v', h1, h2⟩ := ftWordRow_total h hw hs
    rw [hr] at h1
    cases h1
    exact ⟨hs, h2⟩
  · rintro ⟨hs, hr⟩
    obtain ⟨v', h1, h2⟩ := ftWordRow_total h hw hs
    rw [h1, ftRaw_unique h.wf hr h2]

variable [Codec K]

/-- The values as stored in the file. -/
def bitRows (rows : List (List K)) : List (List F32) := rows.map fun r => r.map Codec.bits

theorem ftWriteRows_inv {e : Embeddings K} {ix : Indexer} {ws : List PyStr} {i : Nat} {s s' : Bytes}
    {u : Unit} (h : ftWriteRows e ix i ws s = (.ok u, s')) :
    ∃ vs : List (List K), vs.length = ws.length ∧
      (∀ (k : Nat) w v, ws[k]? = some w → vs[k]? = some v → ftWordRow e ix (i + k) w = .ok v) ∧
      s' = s ++ f32sLE (bitRows vs).flatten := by
  induction ws generalizing i s with
  | nil =>
    obtain ⟨_, rfl⟩ := wr_pure_inv h
    exact ⟨[], rfl, by simp, by simp [bitRows, f32sLE]⟩
  | cons w ws ih =>
    rw [ftWriteRows] at h
    obtain ⟨v, s1, h1, k1⟩ := wr_bind_inv h
    obtain ⟨hv, rfl⟩ := wr_lift_inv h1
    obtain ⟨_, s2, h2, k2⟩ := wr_bind_inv k1
    obtain ⟨rfl, _⟩ := wr_bytes_inv h2
    obtain ⟨vs, g1, g2, g3⟩ := ih k2
    refine ⟨v :: vs, by simp [g1], ?_, ?_⟩
    · intro k w' v' hw' hv'
      cases k with
      | zero =>
        rw [List.getElem?_cons_zero] at hw' hv'
        cases hw'; cases hv'
        exact hv
      | succ k =>
        rw [List.getElem?_cons_succ] at hw' hv'
        rw [← g2 k w' v' hw' hv']
        congr 1
        omega
    · rw [g3]
      unfold bitRows
      rw [List.map_cons, List.flatten_cons, f32sLE_append, List.append_assoc]

theorem ftWriteRows_ok {e : Embeddings K} {ix : Indexer} {ws : List PyStr} {i : Nat}
    {vs : List (List K)} (hl : vs.length = ws.length)
    (hv : ∀ (k : Nat) w v, ws[k]? = some w → vs[k]? = some v → ftWordRow e ix (i + k) w = .ok v) :
    WOk (ftWriteRows e ix i ws) (f32sLE (bitRows vs).flatten) := by
  induction ws generalizing i vs with
  | nil =>
    cases vs with
    | nil => intro s _; simp [ftWriteRows, bitRows, f32sLE]
    | cons => cases hl
  | cons w ws ih =>
    cases vs with
    | nil => cases hl
    | cons v vs =>
      intro s hs
      have e : f32sLE (bitRows (v :: vs)).flatten = f32sLE (v.map Codec.bits) ++ f32sLE (bitRows vs).flatten := by
        unfold bitRows
        rw [List.map_cons, List.flatten_cons, f32sLE_append]
      rw [e] at hs ⊢
      rw [ftWriteRows]
      have h0 := hv 0 w v rfl rfl
      rw [Nat.add_zero] at h0
      rw [h0, wr_bind_ok (wr_lift_ok _ _)]
      refine ((WOk.bytes _).bind (ih (i := i + 1) (by simpa using hl) ?_)) s hs
      intro k w' v' hw' hv'
      rw [← hv (k + 1) w' v' hw' hv']
      congr 1
      omega

/-! ### The file -/

/-- What `write_fasttext` writes. -/
def ftExportOf (ix : FtIndexer) (e : Embeddings K) (m : Mat K) (vs : List (List K)) : FtFile :=
  ftExport ix e.vocab.words m.cols (bitRows vs) (bitRows (m.rows.drop e.vocab.words.length))
    (bitRows m.rows).flatten

omit [NumOps K] in
theorem flat_bits (m : Mat K) : m.flat.map Codec.bits = (bitRows m.rows).flatten := by
  unfold Mat.flat bitRows
  rw [List.map_flatten]

omit [NumOps K] [Codec K] in
theorem FtEmb.rest {e : Embeddings K} {ix : FtIndexer} {m : Mat K} (h : FtEmb e ix m) :
    e.storage.slice ⟨some e.vocab.len, none, none⟩ =
      .ok (.nd ⟨m.cols, m.rows.drop e.vocab.words.length⟩) := by
  have hr := h.rows
  rw [h.storage, h.built.vocab.len]
  show (npSlice m.rows _ >>= _) = _
  rw [npSlice_step1, res_bind_ok]
  have h1 : loPos m.rows.length (some ((e.vocab.words.length : Nat) : Int)) = e.vocab.words.length := by
    unfold loPos clampBound
    simp only
    rw [if_neg (by omega)]
    omega
  have h2 : hiPos m.rows.length none = m.rows.length := rfl
  rw [h1, h2, List.take_length]
  rfl

theorem sle_nat (w n : Nat) : sle w (n : Int) = le w n := by
  unfold sle
  rw [if_pos (by omega), Int.toNat_natCast]

/-- The bytes of the exported file in the order they are written. -/
theorem ftExportOf_bytes {e : Embeddings K} {ix : FtIndexer} {m : Mat K} (h : FtEmb e ix m)
    {vs : List (List K)} (hl : vs.length = e.vocab.words.length) :
    (ftExportOf ix e m vs).bytes =
    (([(4, ftMagic), (4, 12)] : List (Nat × Int)).flatMap (fun f => sle f.1 f.2) ++ []) ++
    ((([(4, (m.cols : Int)), (4, 0), (4, 0), (4, 0), (4, 0), (4, 1), (4, 1), (4, 1), (4, (ix.nBuckets : Int)),
      (4, (ix.minN : Int)), (4, (ix.maxN : Int)), (4, 0)] : List (Nat × Int)).flatMap (fun f => sle f.1 f.2) ++ le 8 0) ++
    ((sle 4 e.vocab.len ++ sle 4 e.vocab.len ++ sle 4 0 ++ sle 8 0 ++ sle 8 (-1) ++
        (e.vocab.words.map fun w => (w, (0 : Int))).flatMap ftWordBytes) ++
    (packRaw [(1, 0), (8, m.rows.length), (8, m.cols)] ++
    (f32sLE (bitRows vs).flatten ++
    (f32sLE (bitRows (m.rows.drop e.vocab.words.length)).flatten ++
     f32sLE (bitRows m.rows).flatten))))) := by
  have hr := h.rows
  have hlen : (bitRows vs ++ bitRows (m.rows.drop e.vocab.words.length)).length = m.rows.length := by
    unfold bitRows
    rw [List.length_append, List.length_map, List.length_map, List.length_drop]
    omega
  have e1 : FtFile.headerBytes =
      (([(4, ftMagic), (4, 12)] : List (Nat × Int)).flatMap (fun f => sle f.1 f.2) ++ []) := by
    simp only [List.flatMap_cons, List.flatMap_nil, List.append_nil, ftMagic, FtFile.headerBytes]
  have e2 : (ftExportOf ix e m vs).cfgBytes =
      (([(4, (m.cols : Int)), (4, 0), (4, 0), (4, 0), (4, 0), (4, 1), (4, 1), (4, 1), (4, (ix.nBuckets : Int)),
      (4, (ix.minN : Int)), (4, (ix.maxN : Int)), (4, 0)] : List (Nat × Int)).flatMap (fun f => sle f.1 f.2) ++ le 8 0) := by
    simp only [List.flatMap_cons, List.flatMap_nil, List.append_nil, List.append_assoc]
    unfold FtFile.cfgBytes
    simp only [List.append_assoc]
    rfl
  have e3 : (ftExportOf ix e m vs).dictBytes =
      (sle 4 e.vocab.len ++ sle 4 e.vocab.len ++ sle 4 0 ++ sle 8 0 ++ sle 8 (-1) ++
        (e.vocab.words.map fun w => (w, (0 : Int))).flatMap ftWordBytes) := by
    unfold FtFile.dictBytes
    show sle 4 ((e.vocab.words.map fun w => (w, (0 : Int))).length : Int) ++ sle 4 (e.vocab.words.length : Int) ++ _ ++ _ ++ _ ++ _ = _
    rw [List.length_map, h.built.vocab.len]
    rfl
  have e4 : (ftExportOf ix e m vs).matrixBytes =
      packRaw [(1, 0), (8, m.rows.length), (8, m.cols)] ++
      (f32sLE (bitRows vs).flatten ++ f32sLE (bitRows (m.rows.drop e.vocab.words.length)).flatten) := by
    unfold FtFile.matrixBytes
    show [0] ++ sle 8 ((bitRows vs ++ bitRows (m.rows.drop e.vocab.words.length)).length : Int) ++ sle 8 (m.cols : Int) ++
      f32sLE (bitRows vs ++ bitRows (m.rows.drop e.vocab.words.length)).flatten = _
    rw [hlen, List.flatten_append, f32sLE_append, sle_nat, sle_nat]
    simp only [packRaw, List.append_assoc, List.append_nil]
    rfl
  unfold FtFile.bytes
  rw [e1, e2, e3, e4]
  show _ ++ f32sLE (bitRows m.rows).flatten = _
  simp only [List.append_assoc]

theorem signed4_nat {n : Nat} (hn : signedOk 4 (n : Int) = true) : n < 2 ^ 31 := by
  have := (signedOk_iff.mp hn).2
  omega

/-- Sizes the format can express. -/
structure FtSizes (e : Embeddings K) (ix : FtIndexer) (m : Mat K) : Prop where
  cols : m.cols < 2 ^ 31
  buckets : ix.nBuckets < 2 ^ 31
  minN : ix.minN < 2 ^ 31
  maxN : ix.maxN < 2 ^ 31
  words : e.vocab.words.length < 2 ^ 31
  text : ∀ w ∈ e.vocab.words, w.any isSurrogate = false

theorem assoc7 (a b c d e f g : Bytes) :
    [] ++ a ++ b ++ c ++ d ++ e ++ f ++ g = a ++ (b ++ (c ++ (d ++ (e ++ (f ++ g))))) := by
  simp only [List.append_assoc, List.nil_append]

theorem writeFasttext_inv {e : Embeddings K} {ix : FtIndexer} {m : Mat K} (h : FtEmb e ix m)
    {s' : Bytes} {u : Unit} (hw : writeFasttext e [] = (.ok u, s')) :
    ∃ vs : List (List K), vs.length = e.vocab.words.length ∧ FtSizes e ix m ∧
      (∀ (i : Nat) w v, e.vocab.words[i]? = some w → vs[i]? = some v →
        FtRaw ix e.vocab.words.length m e.norms i w v) ∧
      s' = (ftExportOf ix e m vs).bytes ∧ s'.length < maxSize := by
  have hcol : e.storage.nCols = m.cols := by rw [h.storage]; rfl
  have hrow : e.storage.nRows = m.rows.length := by rw [h.storage]; rfl
  unfold writeFasttext at hw
  rw [h.sub] at hw
  simp only at hw
  rw [hcol, hrow] at hw
  obtain ⟨_, s1, k1, j1⟩ := wr_bind_inv hw
  obtain ⟨_, rfl⟩ := writeSigned_inv (by simp) k1
  obtain ⟨_, s2, k2, j2⟩ := wr_bind_inv j1
  obtain ⟨hc, rfl⟩ := writeSigned_inv (by simp) k2
  obtain ⟨_, s3, k3, j3⟩ := wr_bind_inv j2
  obtain ⟨⟨hl, ht⟩, rfl⟩ := writeFtVocab_inv _ _ _ _ k3
  obtain ⟨_, s4, k4, j4⟩ := wr_bind_inv j3
  obtain ⟨rfl, _⟩ := writeBinary_inv k4
  obtain ⟨_, s5, k5, j5⟩ := wr_bind_inv j4
  obtain ⟨vs, g1, g2, rfl⟩ := ftWriteRows_inv k5
  obtain ⟨r, s6, k6, j6⟩ := wr_bind_inv j5
  obtain ⟨hr, rfl⟩ := wr_lift_inv k6
  rw [h.rest] at hr
  cases hr
  obtain ⟨_, s7, k7, j7⟩ := wr_bind_inv j6
  unfold writeRaw at k7
  simp only at k7
  obtain ⟨rfl, _⟩ := wr_bytes_inv k7
  unfold writeRaw at j7
  rw [h.storage] at j7
  simp only at j7
  obtain ⟨rfl, hlen⟩ := wr_bytes_inv j7
  rw [h.built.vocab.len] at hl
  have bound : ∀ n : Nat, signedOk 4 (n : Int) = true → n < 2 ^ 31 := fun n hn => signed4_nat hn
  refine ⟨vs, g1, ⟨bound _ (hc (4, (m.cols : Int)) (by simp)),
    bound _ (hc (4, (ix.nBuckets : Int)) (by simp)), bound _ (hc (4, (ix.minN : Int)) (by simp)),
    bound _ (hc (4, (ix.maxN : Int)) (by simp)), hl, ht⟩, ?_, ?_, hlen⟩
  · intro i w v hw hv
    have := g2 i w v hw hv
    rw [Nat.zero_add] at this
    exact ((ftWordRow_iff h hw).mp this).2
  · rw [ftExportOf_bytes h g1, flat_bits, flat_bits]
    exact assoc7 _ _ _ _ _ _ _

theorem writeFasttext_ok {e : Embeddings K} {ix : FtIndexer} {m : Mat K} (h : FtEmb e ix m)
    (hz : FtSizes e ix m) {vs : List (List K)} (hl : vs.length = e.vocab.words.length)
    (hv : ∀ (i : Nat) w v, e.vocab.words[i]? = some w → vs[i]? = some v →
        FtRaw ix e.vocab.words.length m e.norms i w v)
    (hs : (ftExportOf ix e m vs).bytes.length < maxSize) :
    writeFasttext e [] = (.ok (), (ftExportOf ix e m vs).bytes) := by
  have hcol : e.storage.nCols = m.cols := by rw [h.storage]; rfl
  have hrow : e.storage.nRows = m.rows.length := by rw [h.storage]; rfl
  have hr := h.rows
  have hw : WOk (writeFasttext e) (ftExportOf ix e m vs).bytes := by
    rw [ftExportOf_bytes h hl]
    unfold writeFasttext
    rw [h.sub]
    simp only
    rw [hcol, hrow]
    refine (WOk.signed (by decide) [] (by decide)).bind ((WOk.signed (by simp) (le 8 0) ?_).bind
      ((writeFtVocab_ok (by rw [h.built.vocab.len]; exact hz.words) hz.text).bind
        (WOk.bind (fun s hs => writeBinary_ok ?_ hs)
          ((ftWriteRows_ok hl ?_).bind ?_))))
    · intro x hx
      simp only [List.mem_cons, List.not_mem_nil, or_false] at hx
      rcases hx with rfl | rfl | rfl | rfl | rfl | rfl | rfl | rfl | rfl | rfl | rfl | rfl
      · exact int32_nat hz.cols
      · decide
      · decide
      · decide
      · decide
      · decide
      · decide
      · decide
      · exact int32_nat hz.buckets
      · exact int32_nat hz.minN
      · exact int32_nat hz.maxN
      · decide
    · intro x hx
      have h1 := hz.words
      have h2 := hz.buckets
      have h3 := hz.cols
      simp only [List.mem_cons, List.not_mem_nil, or_false] at hx
      rcases hx with rfl | rfl | rfl
      · decide
      · show m.rows.length < 256 ^ 8; omega
      · show m.cols < 256 ^ 8; omega
    · intro k w v hw hv'
      rw [Nat.zero_add]
      exact (ftWordRow_iff h hw).mpr ⟨hz.text w (List.mem_of_getElem? hw), hv k w v hw hv'⟩
    · intro s hs
      rw [h.rest, wr_bind_ok (wr_lift_ok _ _)]
      rw [h.storage]
      unfold writeRaw
      simp only
      rw [flat_bits, flat_bits]
      exact ((WOk.bytes _).bind (WOk.bytes _)) s hs
  have := hw [] (by simpa using hs)
  simpa using this

omit [NumOps K] in
/-- The exported file is a valid file of the format. -/
theorem ftExportOf_ok {e : Embeddings K} {ix : FtIndexer} {m : Mat K} (h : FtEmb e ix m)
    (hz : FtSizes e ix m) (h0 : ∀ w ∈ e.vocab.words, ∀ c ∈ w, c.val ≠ 0) {vs : List (List K)}
    (hl : vs.length = e.vocab.words.length)
    (hc : ∀ v ∈ vs, v.length = m.cols)
    (hs : (ftExportOf ix e m vs).bytes.length < maxSize) : (ftExportOf ix e m vs).OK := by
  have hr := h.rows
  have hix := ftNew_ok.mp (builtIndexer_wf (h.built.vocab.1 _ h.sub))
  obtain ⟨_, _, _, i1, i2, i3, i4, i5⟩ := hix
  have hlen : (ftExportOf ix e m vs).rows.length = m.rows.length := by
    show (bitRows vs ++ bitRows (m.rows.drop e.vocab.words.length)).length = m.rows.length
    unfold bitRows
    rw [List.length_append, List.length_map, List.length_map, List.length_drop]
    omega
  have hcols : ∀ r ∈ (ftExportOf ix e m vs).rows, r.length = m.cols := by
    intro r hr
    rcases List.mem_append.mp hr with hr | hr
    · obtain ⟨v, hv, rfl⟩ := List.mem_map.mp hr
      rw [List.length_map]; exact hc v hv
    · obtain ⟨v, hv, rfl⟩ := List.mem_map.mp hr
      rw [List.length_map]; exact h.wf v (List.mem_of_mem_drop hv)
  have hwords : (ftExportOf ix e m vs).words = e.vocab.words.map fun w => (w, (0 : Int)) := rfl
  have hmem : ∀ p ∈ (ftExportOf ix e m vs).words, p.1 ∈ e.vocab.words ∧ p.2 = 0 := by
    intro p hp
    obtain ⟨w, hw, rfl⟩ := List.mem_map.mp hp
    exact ⟨hw, rfl⟩
  have z32 : Int32Ok 0 := by unfold Int32Ok; omega
  have o32 : Int32Ok 1 := by unfold Int32Ok; omega
  have z64 : Int64Ok 0 := by unfold Int64Ok; omega
  have hflat : (ftExportOf ix e m vs).rows.flatten.length = m.rows.length * m.cols := by
    rw [flatten_length_of hcols, hlen]
  have h1 := hz.words
  have h2 := hz.buckets
  have h3 := hz.cols
  refine ⟨⟨⟨?_, ?_⟩, z32, z32, z32, z32, o32, z32, ⟨?_, ?_⟩, z64, ?_, ?_⟩, ⟨i4, hz.buckets⟩,
    ⟨i1, i2, hz.maxN⟩, ?_, ?_, ?_, ?_, ?_, ?_, hcols, ?_⟩
  · show -(2 ^ 31) ≤ (m.cols : Int); omega
  · show (m.cols : Int) < 2 ^ 31; omega
  · show -(2 ^ 31) ≤ (e.vocab.words.length : Int); omega
  · show (e.vocab.words.length : Int) < 2 ^ 31; omega
  · show Int64Ok (-1); unfold Int64Ok; omega
  · intro p hp; rw [(hmem p hp).2]; exact z64
  · show (-1 : Int) < 0; omega
  · rw [hwords, List.length_map]; exact hz.words
  · intro p hp; exact h0 _ (hmem p hp).1
  · intro p hp; exact any_surrogate.mp (hz.text _ (hmem p hp).1)
  · rw [hwords, List.map_map]
    have : (e.vocab.words.map (Prod.fst ∘ fun w => (w, (0 : Int)))) = e.vocab.words := by
      rw [show (Prod.fst ∘ fun w : PyStr => (w, (0 : Int))) = id from rfl, List.map_id]
    rw [this]
    exact h.built.vocab.nodup
  · rw [hlen, hwords, List.length_map]; exact hr
  · rw [hlen]
    exact h.shape

end

end FF
