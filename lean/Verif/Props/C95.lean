import Verif.Lemmas.Damage
import Verif.Lemmas.Among
import Verif.Props.C10
import Verif.Props.C01
import Verif.Model.Float32
import Verif.Spec.Samples
/-! C95: damage to a number in a file changes that number only. -/

namespace FF
open Fifu

/-- Other bytes inside the storage chunk. -/
theorem file_storage_damage {T : Toml} {mmap : Bool} {bs bs' : Bytes} {e : Embeddings F32}
    {p1 p2 p3 p4 : Nat} {st' : Storage F32} (a1 : HeaderAt bs p1) (a2 : MetaAt T bs p1 e.metadata p2)
    (a3 : VocabAt bs p2 e.vocab e.storage.nRows p3) (a5 : NormsAt bs p4 e.vocab.words.length e.norms)
    (a6 : mmap → Mappable bs e.storage p4) (b4 : StorageAt bs' p3 st' p4)
    (hr : st'.nRows = e.storage.nRows) (he : Empty st' → Empty e.storage)
    (hb : EqBelow bs bs' p3) (hf : EqFrom bs bs' p4) : File T mmap bs' { e with storage := st' } := by
  have l2 := metaAt_le a2
  have l3 := vocabAt_le a3
  refine ⟨p1, p2, p3, p4, hb.header a1 (by omega), hb.meta a2 (by omega), ?_, b4, hf.norms a5 (Nat.le_refl _), ?_⟩
  · show VocabAt bs' p2 e.vocab st'.nRows p3
    rw [hr]
    exact hb.vocab a3 (Nat.le_refl _)
  · intro hm h0
    rw [hf.1]
    exact a6 hm (he h0)

/-- A matrix: on any file that loads, other bytes in the place of the number in row `i` and column `j`
are loaded as another number in this place.  Everything else is as before. -/
theorem C95_matrix (T : Toml) (mmap : Bool) (bs : Bytes) (e : Embeddings F32) (m : Mat F32)
    (hbs : bs.length + 4 < 2 ^ 63) (h : Rd.run (loadFinalfusion T mmap) bs = .ok e)
    (hst : e.storage = .nd m) :
    ∃ base, 4 ∣ base ∧ HasAt bs base (floats m.rows.flatten) ∧
      ∀ i j, i < m.rows.length → j < m.cols → ∀ bs',
        DiffersWithin bs bs' (base + 4 * (i * m.cols + j)) (base + 4 * (i * m.cols + j) + 4) →
        ∃ x : F32, HasAt bs' (base + 4 * (i * m.cols + j)) (uint 4 x.toNat) ∧
          Rd.run (loadFinalfusion T mmap) bs' = .ok { e with storage := .nd (m.withAt i j x) } := by
  obtain ⟨p1, p2, p3, p4, a1, a2, a3, a4, a5, a6⟩ := (loadFinalfusion_iff T mmap bs e hbs).mp h
  obtain ⟨st, v, nm, md⟩ := e
  simp only at hst
  subst hst
  cases a4 with
  | @nd _ pad _ head fields r1 r2 shape fits pad_ok elements stop_eq =>
    refine ⟨p3 + 28 + pad, by obtain ⟨_, _, d⟩ := pad_ok; exact d, elements, ?_⟩
    intro i j hi hj bs' hd
    have hfl := length_flatten_const m.cols m.rows shape
    have hk : i * m.cols + j < m.rows.length * m.cols := by
      have : (i + 1) * m.cols ≤ m.rows.length * m.cols := Nat.mul_le_mul_right _ hi
      rw [Nat.succ_mul] at this; omega
    obtain ⟨x, hx, hel⟩ := floats_damage elements (by rw [hfl]; exact hk) hd
    refine ⟨x, hx, (loadFinalfusion_iff T mmap bs' _ (by rw [hd.1]; exact hbs)).mpr ?_⟩
    have hb : EqBelow bs bs' (p3 + 28 + pad) := fun i' hi' => hd.2 i' (Or.inl (by omega))
    have hf : EqFrom bs bs' p4 := ⟨hd.1, fun i' hi' => hd.2 i' (Or.inr (by omega))⟩
    have hlen : (m.withAt i j x).rows.length = m.rows.length := by simp [Mat.withAt]
    refine file_storage_damage (e := ⟨.nd m, v, nm, md⟩) a1 a2 a3 a5 a6 ?_ hlen ?_ (hb.mono (by omega)) hf
    · refine .nd (pad := pad) (hb.head head (by omega)) ?_ (by rw [hlen]; exact r1) r2 ?_
        (by rw [hlen]; exact fits) pad_ok ?_ (by rw [hlen]; exact stop_eq)
      · rw [hlen]; exact hb.hasAt fields (by simp)
      · exact modify_set_shape shape i j x
      · show HasAt bs' (p3 + 28 + pad) (floats (m.rows.modify i fun r => r.set j x).flatten)
        rw [flatten_modify_set m.cols x j m.rows shape i hi hj]
        exact hel
    · intro h0
      show m.rows.length * m.cols = 0
      rw [← hlen]; exact h0

/-- The norms of the words. -/
theorem C95_norms (T : Toml) (mmap : Bool) (bs : Bytes) (e : Embeddings F32) (ns : List F32)
    (hbs : bs.length + 4 < 2 ^ 63) (h : Rd.run (loadFinalfusion T mmap) bs = .ok e)
    (hn : e.norms = some ns) :
    ∃ base, 4 ∣ base ∧ HasAt bs base (floats ns) ∧
      ∀ i, i < ns.length → ∀ bs', DiffersWithin bs bs' (base + 4 * i) (base + 4 * i + 4) →
        ∃ x : F32, HasAt bs' (base + 4 * i) (uint 4 x.toNat) ∧
          Rd.run (loadFinalfusion T mmap) bs' = .ok { e with norms := some (ns.set i x) } := by
  obtain ⟨p1, p2, p3, p4, a1, a2, a3, a4, a5, a6⟩ := (loadFinalfusion_iff T mmap bs e hbs).mp h
  rw [hn] at a5
  obtain ⟨c, pad, hh, hc, hp, hl, hx, h63, hor⟩ := a5
  refine ⟨p4 + 24 + pad, hp.2.2, hx, ?_⟩
  intro i hi bs' hd
  obtain ⟨x, hx', hel⟩ := floats_damage hx hi hd
  refine ⟨x, hx', (loadFinalfusion_iff T mmap bs' _ (by rw [hd.1]; exact hbs)).mpr ?_⟩
  have hb : EqBelow bs bs' (p4 + 24 + pad) := fun i' hi' => hd.2 i' (Or.inl (by omega))
  have l2 := metaAt_le a2
  have l3 := vocabAt_le a3
  have l4 := storageAt_le a4
  refine ⟨p1, p2, p3, p4, hb.header a1 (by omega), hb.meta a2 (by omega), hb.vocab a3 (by omega),
    hb.storage a4 (by omega), ?_, ?_⟩
  · exact ⟨c, pad, hb.head hh (by omega), hb.hasAt hc (by simp), hp, by rw [List.length_set]; exact hl,
      hel, h63, by rw [hd.1]; exact hor⟩
  · intro hm h0
    rw [hd.1]
    exact a6 hm h0

/-- The codes of a quantized matrix.  Any other byte is loaded, also one that stands for no centroid. -/
theorem C95_codes (T : Toml) (mmap : Bool) (bs : Bytes) (e : Embeddings F32) (q : QArr F32)
    (hbs : bs.length + 4 < 2 ^ 63) (h : Rd.run (loadFinalfusion T mmap) bs = .ok e)
    (hst : e.storage = .quant q) :
    ∃ base, HasAt bs base q.codes.flatten ∧
      ∀ i j, i < q.codes.length → j < q.qlen → ∀ bs',
        DiffersWithin bs bs' (base + (i * q.qlen + j)) (base + (i * q.qlen + j) + 1) →
        ∃ b : UInt8, bs'[base + (i * q.qlen + j)]? = some b ∧
          Rd.run (loadFinalfusion T mmap) bs' = .ok { e with storage := .quant (q.withCode i j b) } := by
  obtain ⟨p1, p2, p3, p4, a1, a2, a3, a4, a5, a6⟩ := (loadFinalfusion_iff T mmap bs e hbs).mp h
  obtain ⟨st, v, nm, md⟩ := e
  simp only at hst
  subst hst
  cases a4 with
  | @quant _ pf nf pad _ head fields b1 b2 b3 b4 b5 b6 b7 b8 shape pad_ok elements stop_eq =>
    generalize hpre : optFloats (q.pq.projection.map fun m => m.rows.flatten) ++
        floats (q.pq.quantizers.map List.flatten).flatten ++ optFloats q.norms = pre at elements stop_eq
    rw [hasAt_append] at elements
    refine ⟨p3 + 48 + pad + pre.length, elements.2, ?_⟩
    intro i j hi hj bs' hd
    have hfl := length_flatten_const q.qlen q.codes shape.codes
    have hk : i * q.qlen + j < q.codes.length * q.qlen := by
      have : (i + 1) * q.qlen ≤ q.codes.length * q.qlen := Nat.mul_le_mul_right _ hi
      rw [Nat.succ_mul] at this; omega
    obtain ⟨x, hx, hel⟩ := bytes_damage elements.2 (by rw [hfl]; exact hk) hd
    refine ⟨x, hx, (loadFinalfusion_iff T mmap bs' _ (by rw [hd.1]; exact hbs)).mpr ?_⟩
    rw [List.length_append, hfl] at stop_eq
    have hb : EqBelow bs bs' (p3 + 48 + pad + pre.length) := fun i' hi' => hd.2 i' (Or.inl (by omega))
    have hf : EqFrom bs bs' p4 := ⟨hd.1, fun i' hi' => hd.2 i' (Or.inr (by omega))⟩
    have hlen : (q.withCode i j x).codes.length = q.codes.length := by simp [QArr.withCode]
    have hflat : (q.withCode i j x).codes.flatten = q.codes.flatten.set (i * q.qlen + j) x :=
      flatten_modify_set q.qlen x j q.codes shape.codes i hi hj
    refine file_storage_damage (e := ⟨.quant q, v, nm, md⟩) a1 a2 a3 a5 a6 ?_ hlen ?_ (hb.mono (by omega)) hf
    · refine .quant (pf := pf) (nf := nf) (pad := pad) (hb.head head (by omega)) ?_ b1 b2 b3 b4 b5
        (by rw [hlen]; exact b6) b7 b8 ?_ pad_ok ?_ ?_
      · rw [hlen]; exact hb.hasAt fields (by simp; omega)
      · exact ⟨shape.qpos, shape.qlen, shape.cents, shape.subs, shape.proj,
          by intro n hn; rw [hlen]; exact shape.norms n hn, modify_set_shape shape.codes i j x, shape.fits,
          by rw [hlen]; exact shape.codesFit⟩
      · show HasAt bs' _ (optFloats (q.pq.projection.map fun m => m.rows.flatten) ++
          floats (q.pq.quantizers.map List.flatten).flatten ++ optFloats q.norms ++ _)
        rw [hpre, hasAt_append, hflat]
        exact ⟨hb.hasAt elements.1 (by omega), hel⟩
      · show _ = _ + (optFloats (q.pq.projection.map fun m => m.rows.flatten) ++
          floats (q.pq.quantizers.map List.flatten).flatten ++ optFloats q.norms ++ _).length
        rw [hpre, List.length_append, hflat, List.length_set, hfl]
        exact stop_eq
    · intro h0
      show q.codes.length = 0
      rw [← hlen]; exact h0

/-- The centroids of a quantized matrix. -/
theorem C95_centroids (T : Toml) (mmap : Bool) (bs : Bytes) (e : Embeddings F32) (q : QArr F32)
    (hbs : bs.length + 4 < 2 ^ 63) (h : Rd.run (loadFinalfusion T mmap) bs = .ok e)
    (hst : e.storage = .quant q) :
    ∃ base, 4 ∣ base ∧ HasAt bs base (floats (q.pq.quantizers.map List.flatten).flatten) ∧
      ∀ i j k pos, i < q.pq.quantizers.length → j < q.pq.nCentroids → k < q.pq.sub →
        pos = base + 4 * (i * (q.pq.nCentroids * q.pq.sub) + (j * q.pq.sub + k)) →
        ∀ bs', DiffersWithin bs bs' pos (pos + 4) →
        ∃ x : F32, HasAt bs' pos (uint 4 x.toNat) ∧
          Rd.run (loadFinalfusion T mmap) bs' =
            .ok { e with storage := .quant (q.withCentroid i j k x) } := by
  obtain ⟨p1, p2, p3, p4, a1, a2, a3, a4, a5, a6⟩ := (loadFinalfusion_iff T mmap bs e hbs).mp h
  obtain ⟨st, v, nm, md⟩ := e
  simp only at hst
  subst hst
  cases a4 with
  | @quant _ pf nf pad _ head fields b1 b2 b3 b4 b5 b6 b7 b8 shape pad_ok elements stop_eq =>
    have hdvd : 4 ∣ (optFloats (q.pq.projection.map fun m => m.rows.flatten)).length := by
      cases q.pq.projection <;> simp [optFloats]
    generalize hpre : optFloats (q.pq.projection.map fun m => m.rows.flatten) = pre at elements stop_eq hdvd
    generalize hpost : optFloats q.norms ++ q.codes.flatten = post at elements stop_eq
    have hsplit : ∀ a b c d : Bytes, a ++ b ++ c ++ d = a ++ (b ++ (c ++ d)) := by intros; simp
    rw [hsplit] at elements stop_eq
    rw [hpost] at elements stop_eq
    rw [hasAt_append, hasAt_append] at elements
    obtain ⟨el1, el2, el3⟩ := elements
    refine ⟨p3 + 48 + pad + pre.length, by obtain ⟨_, _, d⟩ := pad_ok; exact Nat.dvd_add d hdvd, el2, ?_⟩
    intro i j k pos hi hj hk hpos bs' hd
    subst hpos
    have hflat : ∀ r ∈ q.pq.quantizers.map List.flatten, r.length = q.pq.nCentroids * q.pq.sub := by
      intro r hr
      obtain ⟨m, hm, rfl⟩ := List.mem_map.mp hr
      rw [length_flatten_const q.pq.sub m (shape.subs m hm), shape.cents m hm]
    have hfl := length_flatten_const _ _ hflat
    rw [List.length_map] at hfl
    have hjk : j * q.pq.sub + k < q.pq.nCentroids * q.pq.sub := by
      have : (j + 1) * q.pq.sub ≤ q.pq.nCentroids * q.pq.sub := Nat.mul_le_mul_right _ hj
      rw [Nat.succ_mul] at this; omega
    have hk' : i * (q.pq.nCentroids * q.pq.sub) + (j * q.pq.sub + k) <
        q.pq.quantizers.length * (q.pq.nCentroids * q.pq.sub) := by
      have : (i + 1) * (q.pq.nCentroids * q.pq.sub) ≤ q.pq.quantizers.length * (q.pq.nCentroids * q.pq.sub) :=
        Nat.mul_le_mul_right _ hi
      rw [Nat.succ_mul] at this; omega
    obtain ⟨x, hx, hel⟩ := floats_damage el2 (by rw [hfl]; exact hk') hd
    refine ⟨x, hx, (loadFinalfusion_iff T mmap bs' _ (by rw [hd.1]; exact hbs)).mpr ?_⟩
    have hnew : ((q.withCentroid i j k x).pq.quantizers.map List.flatten).flatten =
        (q.pq.quantizers.map List.flatten).flatten.set
          (i * (q.pq.nCentroids * q.pq.sub) + (j * q.pq.sub + k)) x := by
      rw [← flatten_modify_set _ x _ _ hflat i (by rw [List.length_map]; exact hi) hjk]
      congr 1
      exact map_flatten_modify q.pq.sub q.pq.nCentroids i j k x q.pq.quantizers shape.subs shape.cents hj hk
    have hnq : (q.withCentroid i j k x).pq.quantizers.length = q.pq.quantizers.length := by
      simp [QArr.withCentroid]
    have hrec : (q.withCentroid i j k x).pq.reconstructedLen = q.pq.reconstructedLen := by
      unfold PQ.reconstructedLen; rw [hnq]; rfl
    rw [List.length_append, List.length_append, length_floats, hfl] at stop_eq
    have hb : EqBelow bs bs' (p3 + 48 + pad + pre.length) := fun i' hi' => hd.2 i' (Or.inl (by omega))
    have hf : EqFrom bs bs' (p3 + 48 + pad + pre.length +
        4 * (q.pq.quantizers.length * (q.pq.nCentroids * q.pq.sub))) :=
      ⟨hd.1, fun i' hi' => hd.2 i' (Or.inr (by omega))⟩
    have hf4 : EqFrom bs bs' p4 := ⟨hf.1, fun i' hi' => hf.2 i' (by omega)⟩
    refine file_storage_damage (e := ⟨.quant q, v, nm, md⟩) a1 a2 a3 a5 a6 ?_ rfl id (hb.mono (by omega)) hf4
    · refine .quant (pf := pf) (nf := nf) (pad := pad) (hb.head head (by omega)) ?_ b1 b2 b3
        (by rw [hrec]; exact b4) b5 b6 b7 b8 ?_ pad_ok ?_ ?_
      · rw [hrec]; exact hb.hasAt fields (by simp; omega)
      · refine ⟨shape.qpos, by rw [hnq]; exact shape.qlen, ?_, ?_, by rw [hrec]; exact shape.proj, shape.norms,
          shape.codes, by rw [hnq]; exact shape.fits, shape.codesFit⟩
        · intro m hm
          obtain ⟨n, hn, rfl⟩ := List.mem_iff_getElem.mp hm
          simp only [QArr.withCentroid, List.getElem_modify]
          split
          · rw [List.length_modify]; exact shape.cents _ (List.getElem_mem _)
          · exact shape.cents _ (List.getElem_mem _)
        · intro m hm
          obtain ⟨n, hn, rfl⟩ := List.mem_iff_getElem.mp hm
          simp only [QArr.withCentroid, List.getElem_modify]
          split
          · exact modify_set_shape (shape.subs _ (List.getElem_mem _)) j k x
          · exact shape.subs _ (List.getElem_mem _)
      · rw [hnew]
        show HasAt bs' _ (optFloats (q.pq.projection.map fun m => m.rows.flatten) ++ _ ++ optFloats q.norms ++
          q.codes.flatten)
        rw [hsplit, hpre, hpost, hasAt_append, hasAt_append]
        refine ⟨hb.hasAt el1 (by omega), hel, ?_⟩
        rw [length_floats, List.length_set, hfl]
        rw [length_floats, hfl] at el3
        exact hf.hasAt el3 (Nat.le_refl _)
      · rw [hnew]
        show _ = _ + (optFloats (q.pq.projection.map fun m => m.rows.flatten) ++ _ ++ optFloats q.norms ++
          q.codes.flatten).length
        rw [hsplit, hpre, hpost, List.length_append, List.length_append, length_floats, List.length_set, hfl]
        exact stop_eq

/-- The norms of a quantized matrix. -/
theorem C95_quantized_norms (T : Toml) (mmap : Bool) (bs : Bytes) (e : Embeddings F32) (q : QArr F32) (ns : List F32)
    (hbs : bs.length + 4 < 2 ^ 63) (h : Rd.run (loadFinalfusion T mmap) bs = .ok e)
    (hst : e.storage = .quant q) (hn : q.norms = some ns) :
    ∃ base, 4 ∣ base ∧ HasAt bs base (floats ns) ∧
      ∀ i, i < ns.length → ∀ bs', DiffersWithin bs bs' (base + 4 * i) (base + 4 * i + 4) →
        ∃ x : F32, HasAt bs' (base + 4 * i) (uint 4 x.toNat) ∧
          Rd.run (loadFinalfusion T mmap) bs' =
            .ok { e with storage := .quant { q with norms := some (ns.set i x) } } := by
  obtain ⟨p1, p2, p3, p4, a1, a2, a3, a4, a5, a6⟩ := (loadFinalfusion_iff T mmap bs e hbs).mp h
  obtain ⟨st, v, nm, md⟩ := e
  simp only at hst
  subst hst
  cases a4 with
  | @quant _ pf nf pad _ head fields b1 b2 b3 b4 b5 b6 b7 b8 shape pad_ok elements stop_eq =>
    rw [hn] at elements stop_eq b8
    have hdvd : 4 ∣ (optFloats (q.pq.projection.map fun m => m.rows.flatten) ++
        floats (q.pq.quantizers.map List.flatten).flatten).length := by
      rw [List.length_append, length_floats]
      cases q.pq.projection <;> simp [optFloats, Nat.dvd_add]
    generalize hpre : optFloats (q.pq.projection.map fun m => m.rows.flatten) ++
        floats (q.pq.quantizers.map List.flatten).flatten = pre at elements stop_eq hdvd
    rw [List.append_assoc] at elements stop_eq
    rw [hasAt_append, hasAt_append] at elements
    obtain ⟨el1, el2, el3⟩ := elements
    change HasAt bs _ (floats ns) at el2
    refine ⟨p3 + 48 + pad + pre.length, by obtain ⟨_, _, d⟩ := pad_ok; exact Nat.dvd_add d hdvd, el2, ?_⟩
    intro i hi bs' hd
    obtain ⟨x, hx, hel⟩ := floats_damage el2 hi hd
    refine ⟨x, hx, (loadFinalfusion_iff T mmap bs' _ (by rw [hd.1]; exact hbs)).mpr ?_⟩
    rw [List.length_append, List.length_append] at stop_eq
    change _ = _ + (_ + ((floats ns).length + _)) at stop_eq
    change HasAt bs (_ + (floats ns).length) _ at el3
    rw [length_floats] at stop_eq el3
    have hb : EqBelow bs bs' (p3 + 48 + pad + pre.length) := fun i' hi' => hd.2 i' (Or.inl (by omega))
    have hf : EqFrom bs bs' (p3 + 48 + pad + pre.length + 4 * ns.length) :=
      ⟨hd.1, fun i' hi' => hd.2 i' (Or.inr (by omega))⟩
    have hf4 : EqFrom bs bs' p4 := ⟨hf.1, fun i' hi' => hf.2 i' (by omega)⟩
    refine file_storage_damage (e := ⟨.quant q, v, nm, md⟩) a1 a2 a3 a5 a6 ?_ rfl id (hb.mono (by omega)) hf4
    refine .quant (pf := pf) (nf := nf) (pad := pad) (hb.head head (by omega)) (hb.hasAt fields (by simp; omega))
      b1 b2 b3 b4 b5 b6 b7 b8 ?_ pad_ok ?_ ?_
    · refine ⟨shape.qpos, shape.qlen, shape.cents, shape.subs, shape.proj, ?_, shape.codes, shape.fits,
        shape.codesFit⟩
      intro n hn'
      cases hn'
      rw [List.length_set]
      exact shape.norms ns hn
    · show HasAt bs' _ (optFloats (q.pq.projection.map fun m => m.rows.flatten) ++
        floats (q.pq.quantizers.map List.flatten).flatten ++ floats (ns.set i x) ++ q.codes.flatten)
      rw [hpre, List.append_assoc, hasAt_append, hasAt_append, length_floats, List.length_set]
      exact ⟨hb.hasAt el1 (by omega), hel, hf.hasAt el3 (Nat.le_refl _)⟩
    · show _ = _ + (optFloats (q.pq.projection.map fun m => m.rows.flatten) ++
        floats (q.pq.quantizers.map List.flatten).flatten ++ floats (ns.set i x) ++ q.codes.flatten).length
      rw [hpre, List.append_assoc, List.length_append, List.length_append, length_floats, List.length_set]
      exact stop_eq

/-- The projection of a quantized matrix. -/
theorem C95_projection (T : Toml) (mmap : Bool) (bs : Bytes) (e : Embeddings F32) (q : QArr F32) (m : Mat F32)
    (hbs : bs.length + 4 < 2 ^ 63) (h : Rd.run (loadFinalfusion T mmap) bs = .ok e)
    (hst : e.storage = .quant q) (hm : q.pq.projection = some m) :
    ∃ base, 4 ∣ base ∧ HasAt bs base (floats m.rows.flatten) ∧
      ∀ i j, i < m.rows.length → j < m.cols → ∀ bs',
        DiffersWithin bs bs' (base + 4 * (i * m.cols + j)) (base + 4 * (i * m.cols + j) + 4) →
        ∃ x : F32, HasAt bs' (base + 4 * (i * m.cols + j)) (uint 4 x.toNat) ∧
          Rd.run (loadFinalfusion T mmap) bs' =
            .ok { e with storage := .quant { q with pq := { q.pq with projection := some (m.withAt i j x) } } } := by
  obtain ⟨p1, p2, p3, p4, a1, a2, a3, a4, a5, a6⟩ := (loadFinalfusion_iff T mmap bs e hbs).mp h
  obtain ⟨st, v, nm, md⟩ := e
  simp only at hst
  subst hst
  cases a4 with
  | @quant _ pf nf pad _ head fields b1 b2 b3 b4 b5 b6 b7 b8 shape pad_ok elements stop_eq =>
    rw [hm] at elements stop_eq b7
    have hwf := shape.proj m hm
    generalize hpost : floats (q.pq.quantizers.map List.flatten).flatten ++ (optFloats q.norms ++ q.codes.flatten) =
      post at elements stop_eq
    have hsplit : ∀ a b c d : Bytes, a ++ b ++ c ++ d = a ++ (b ++ (c ++ d)) := by intros; simp
    rw [hsplit, hpost] at elements stop_eq
    change HasAt bs _ (floats m.rows.flatten ++ post) at elements
    change _ = _ + (floats m.rows.flatten ++ post).length at stop_eq
    rw [hasAt_append] at elements
    obtain ⟨el1, el2⟩ := elements
    refine ⟨p3 + 48 + pad, by obtain ⟨_, _, d⟩ := pad_ok; exact d, el1, ?_⟩
    intro i j hi hj bs' hd
    have hrows : ∀ r ∈ m.rows, r.length = m.cols := hwf.1
    have hfl := length_flatten_const m.cols m.rows hrows
    have hk : i * m.cols + j < m.rows.length * m.cols := by
      have : (i + 1) * m.cols ≤ m.rows.length * m.cols := Nat.mul_le_mul_right _ hi
      rw [Nat.succ_mul] at this; omega
    obtain ⟨x, hx, hel⟩ := floats_damage el1 (by rw [hfl]; exact hk) hd
    refine ⟨x, hx, (loadFinalfusion_iff T mmap bs' _ (by rw [hd.1]; exact hbs)).mpr ?_⟩
    rw [List.length_append, length_floats, hfl] at stop_eq
    rw [length_floats, hfl] at el2
    have hflat : (m.withAt i j x).rows.flatten = m.rows.flatten.set (i * m.cols + j) x :=
      flatten_modify_set m.cols x j m.rows hrows i hi hj
    have hlen : (m.withAt i j x).rows.length = m.rows.length := by simp [Mat.withAt]
    have hb : EqBelow bs bs' (p3 + 48 + pad) := fun i' hi' => hd.2 i' (Or.inl (by omega))
    have hf : EqFrom bs bs' (p3 + 48 + pad + 4 * (m.rows.length * m.cols)) :=
      ⟨hd.1, fun i' hi' => hd.2 i' (Or.inr (by omega))⟩
    have hf4 : EqFrom bs bs' p4 := ⟨hf.1, fun i' hi' => hf.2 i' (by omega)⟩
    refine file_storage_damage (e := ⟨.quant q, v, nm, md⟩) a1 a2 a3 a5 a6 ?_ rfl id (hb.mono (by omega)) hf4
    refine .quant (pf := pf) (nf := nf) (pad := pad) (hb.head head (by omega)) (hb.hasAt fields (by simp))
      b1 b2 b3 b4 b5 b6 b7 b8 ?_ pad_ok ?_ ?_
    · refine ⟨shape.qpos, shape.qlen, shape.cents, shape.subs, ?_, shape.norms, shape.codes, shape.fits,
        shape.codesFit⟩
      intro n hn'
      cases hn'
      exact ⟨modify_set_shape hrows i j x, hlen.trans hwf.2.1, hwf.2.2⟩
    · show HasAt bs' _ (floats (m.withAt i j x).rows.flatten ++
        floats (q.pq.quantizers.map List.flatten).flatten ++ optFloats q.norms ++ q.codes.flatten)
      rw [hsplit, hpost, hflat, hasAt_append, length_floats, List.length_set, hfl]
      exact ⟨hel, hf.hasAt el2 (Nat.le_refl _)⟩
    · show _ = _ + (floats (m.withAt i j x).rows.flatten ++
        floats (q.pq.quantizers.map List.flatten).flatten ++ optFloats q.norms ++ q.codes.flatten).length
      rw [hsplit, hpost, hflat, List.length_append, length_floats, List.length_set, hfl]
      exact stop_eq

/-- One byte anywhere in the matrix: exactly one number changes. -/
theorem C95_byte (T : Toml) (mmap : Bool) (bs : Bytes) (e : Embeddings F32) (m : Mat F32)
    (hbs : bs.length + 4 < 2 ^ 63) (h : Rd.run (loadFinalfusion T mmap) bs = .ok e)
    (hst : e.storage = .nd m) :
    ∃ base, 4 ∣ base ∧ HasAt bs base (floats m.rows.flatten) ∧
      ∀ pos b, base ≤ pos → pos < base + 4 * (m.rows.length * m.cols) → bs[pos]? ≠ some b →
        ∃ i j x, i < m.rows.length ∧ j < m.cols ∧ (∀ r, m.rows[i]? = some r → r[j]? ≠ some x) ∧
          Rd.run (loadFinalfusion T mmap) (bs.set pos b) =
            .ok { e with storage := .nd (m.withAt i j x) } := by
  obtain ⟨base, h4, hat, hall⟩ := C95_matrix T mmap bs e m hbs h hst
  refine ⟨base, h4, hat, ?_⟩
  intro pos b hp1 hp2 hne
  have hwf : m.WF := by
    have := (C10_consistent T mmap bs e (by omega) h).2.2.2.2.1
    rw [hst] at this
    exact this.1
  have hfl := length_flatten_const m.cols m.rows hwf
  obtain ⟨k, t, ht, rfl⟩ : ∃ k t, t < 4 ∧ pos = base + 4 * k + t :=
    ⟨(pos - base) / 4, (pos - base) % 4, by omega, by omega⟩
  have hk : k < m.rows.length * m.cols := by omega
  have hc : 0 < m.cols := by
    rcases Nat.eq_zero_or_pos m.cols with h0 | h0
    · rw [h0, Nat.mul_zero] at hk; omega
    · exact h0
  have hi : k / m.cols < m.rows.length := Nat.div_lt_of_lt_mul (by rw [Nat.mul_comm]; exact hk)
  have hj : k % m.cols < m.cols := Nat.mod_lt _ hc
  have hij : k / m.cols * m.cols + k % m.cols = k := Nat.div_add_mod' k m.cols
  have hlen : base + 4 * k + t < bs.length := by
    have := FF.hasAt_le hat (by
      intro h0
      have := congrArg List.length h0
      rw [length_floats, hfl] at this
      simp at this
      rcases this with h | h
      · rw [h] at hi; simp at hi
      · omega)
    rw [length_floats, hfl] at this
    omega
  obtain ⟨x, hx, hl⟩ := hall _ _ hi hj (bs.set (base + 4 * k + t) b) (by
    rw [hij]
    refine ⟨by simp, ?_⟩
    intro i hi
    rw [List.getElem?_set_ne (by omega)])
  refine ⟨_, _, x, hi, hj, ?_, hl⟩
  intro r hr hrx
  apply hne
  rw [hij] at hx
  have hfk : m.rows.flatten[k]? = some x := by
    have hset := flatten_modify_set m.cols x _ m.rows hwf _ hi hj
    have hid : (m.rows.modify (k / m.cols) fun r => r.set (k % m.cols) x) = m.rows := by
      apply List.ext_getElem?
      intro n
      rw [List.getElem?_modify]
      split
      next he =>
        rw [← he, hr]
        show some _ = some _
        congr 1
        obtain ⟨h1, h2⟩ := List.getElem?_eq_some_iff.mp hrx
        show r.set _ x = r
        rw [← h2, List.set_getElem_self]
      next he => simp
    rw [hid, hij] at hset
    rw [hset, List.getElem?_set_self (by rw [hfl]; exact hk)]
  have hold := floats_at hat hfk
  have h1 := hasAt_iff_get.mp hold t (by simpa using ht)
  have h2 := hasAt_iff_get.mp hx t (by simpa using ht)
  rw [h1, ← h2, List.getElem?_set_self hlen]

/-- The vectors of the other words are as before, whatever the arithmetic. -/
theorem C95_others {K : Type} [NumOps K] (e : Embeddings K) (he : BuiltEmb e) (m : Mat K)
    (hst : e.storage = .nd m) (i j : Nat) (x : K) (w : PyStr) (hm : w ∈ e.vocab.words)
    (hw : e.vocab.words[i]? ≠ some w) :
    ({ e with storage := .nd (m.withAt i j x) } : Embeddings K).embedding w = e.embedding w := by
  obtain ⟨i', hi'⟩ := List.mem_iff_getElem?.mp hm
  have hne : i' ≠ i := by rintro rfl; exact hw hi'
  have hlt : i' < m.rows.length := by
    have h1 := (List.getElem?_eq_some_iff.mp hi').1
    have := he.words_le
    rw [hst] at this
    exact Nat.lt_of_lt_of_le h1 this
  have h1 : e.storage.getOne i' = .ok m.rows[i'] := by
    rw [hst]
    exact npGet_nat.mpr (List.getElem?_eq_getElem hlt)
  have h2 : (Storage.nd (m.withAt i j x)).getOne i' = .ok m.rows[i'] := by
    apply npGet_nat.mpr
    show (m.rows.modify i _)[i']? = _
    rw [List.getElem?_modify, List.getElem?_eq_getElem hlt]
    show some (if i = i' then _ else _) = some _
    rw [if_neg (Ne.symm hne)]
  have hlen : (m.withAt i j x).rows.length = m.rows.length := by simp [Mat.withAt]
  have hb : BuiltEmb ({ e with storage := .nd (m.withAt i j x) } : Embeddings K) := by
    obtain ⟨a, b, c⟩ := he
    rw [hst] at b c
    refine ⟨a, ⟨modify_set_shape b.1 i j x, by rw [hlen]; exact b.2⟩, ?_⟩
    obtain ⟨_, c2, c3⟩ := embNew_iff.mp c
    refine embNew_iff.mpr ⟨rfl, ?_, fun n hn => ⟨Nat.le_trans (c3 n hn).1 (Nat.le_of_eq hlen.symm), (c3 n hn).2⟩⟩
    show ((m.withAt i j x).rows.length : Int) = _
    rw [hlen]
    exact c2
  rw [(C28_known e he i' w _ hi' h1).2.1]
  exact (C28_known _ hb i' w _ hi' h2).2.1

/-- One word `a` with one code. -/
def C95_witness : Embeddings F32 :=
  ⟨.quant ⟨⟨2, 1, [[[0x3F800000], [0x40000000]]], none⟩, 1, [[1]], none⟩, ⟨[[97]], [([97], 0)], none⟩, none, none⟩

/-- Damage goes unnoticed until a vector is needed: with one other byte the file of `C95_witness` loads, but the
vector of its word has no centroid. -/
theorem C95_unnoticed_refuted : ∃ bs pos b e',
    (C95_witness.write Sample.toml).file = (.ok (), bs) ∧
    @Embeddings.embedding F32 b32Ops C95_witness [97] = .ok (some [0x40000000]) ∧
    Rd.run (loadFinalfusion Sample.toml false) (bs.set pos b) = .ok e' ∧
    @Embeddings.embedding F32 b32Ops e' [97] = .error .indexError := by
  have hw : (C95_witness.write Sample.toml).file = (.ok (), (C95_witness.write Sample.toml).file.2) :=
    Sample.file_ok (by decide +kernel)
  have hbs : (C95_witness.write Sample.toml).file.2.length + 4 < 2 ^ 63 := by decide +kernel
  generalize (C95_witness.write Sample.toml).file.2 = bs at hw hbs
  have hb : BuiltEmb C95_witness := ⟨⟨(by intro ix h; cases h), by decide⟩,
    ⟨by decide, rfl, by decide, by decide, (by intro _ h; cases h), (by intro _ h; cases h), by decide, by decide, by decide⟩,
    embNew_iff.mpr ⟨rfl, by decide, (by intro _ h; cases h)⟩⟩
  have hl := C01_roundtrip_eq Sample.toml C95_witness bs hb (by intro m s h; cases h) hw
    (by intro ix h; cases h)
  obtain ⟨base, hat, hall⟩ := C95_codes Sample.toml false bs _ _ hbs hl rfl
  have h0 := hasAt_iff_get.mp hat 0 (by decide)
  have hlt := (List.getElem?_eq_some_iff.mp h0).1
  obtain ⟨b, hb1, hb2⟩ := hall 0 0 (by decide) (by decide) (bs.set base 2)
    ⟨by simp, fun i hi => List.getElem?_set_ne (by omega)⟩
  have : b = 2 := by
    have h2 : (bs.set base 2)[base]? = some 2 := List.getElem?_set_self hlt
    have h3 : (bs.set base 2)[base]? = some b := hb1
    rw [h2] at h3
    exact (Option.some.inj h3).symm
  subst this
  exact ⟨bs, base, 2, _, hw, by decide +kernel, hb2, by decide +kernel⟩

/-! ### The hypotheses can be met -/

theorem Sample.simpleFile : ∃ bs, bs.length + 4 < 2 ^ 63 ∧
    Rd.run (loadFinalfusion Sample.toml false) bs = .ok Sample.embSimple ∧
    Sample.embSimple.storage = .nd Sample.nd3 ∧ Sample.embSimple.norms = some [7, 8, 9] :=
  ⟨_, by decide +kernel, C01_roundtrip_eq Sample.toml Sample.embSimple _ Sample.builtEmbSimple Sample.tomlSimple
    (Sample.file_ok Sample.writeSimple) (by intro ix h; cases h), rfl, rfl⟩

example : ∃ bs, bs.length + 4 < 2 ^ 63 ∧
    Rd.run (loadFinalfusion Sample.toml false) bs = .ok Sample.embFt ∧
    Sample.embFt.storage = .quant Sample.q5 :=
  ⟨_, by decide +kernel, C01_roundtrip_eq Sample.toml Sample.embFt _ Sample.builtEmbFt Sample.tomlFt
    (Sample.file_ok (by decide +kernel)) (by intro ix h; cases h), rfl⟩

/-- A damaged file: the exponent of one number. -/
example : ∃ bs base i j x, i < 3 ∧ j < 2 ∧
    HasAt bs base (floats Sample.nd3.rows.flatten) ∧ bs[base]? ≠ some 200 ∧
    Rd.run (loadFinalfusion Sample.toml false) (bs.set base 200) =
      .ok { Sample.embSimple with storage := .nd (Sample.nd3.withAt i j x) } := by
  obtain ⟨bs, h1, h2, h3, _⟩ := Sample.simpleFile
  obtain ⟨base, _, hat, hall⟩ := C95_byte Sample.toml false bs _ _ h1 h2 h3
  have hne : bs[base]? ≠ some 200 := by
    have := hasAt_iff_get.mp hat 0 (by decide)
    simp only [Nat.add_zero] at this
    rw [this]
    decide
  obtain ⟨i, j, x, hi, hj, _, hl⟩ := hall base 200 (Nat.le_refl _) (by
    show base < base + 4 * (3 * 2); omega) hne
  exact ⟨bs, base, i, j, x, hi, hj, hat, hne, hl⟩

example : DiffersWithin [1, 2, 3, 4, 5] [1, 9, 3, 4, 5] 1 2 :=
  ⟨rfl, by
    intro i hi
    rcases hi with hi | hi
    · have : i = 0 := by omega
      subst this; rfl
    · obtain ⟨k, rfl⟩ := Nat.exists_eq_add_of_le hi
      rw [Nat.add_comm]; rfl⟩

example : BuiltEmb Sample.embSimple ∧ Sample.embSimple.storage = .nd Sample.nd3 ∧
    ∃ w, w ∈ Sample.embSimple.vocab.words ∧ Sample.embSimple.vocab.words[0]? ≠ some w :=
  ⟨Sample.builtEmbSimple, rfl, _, List.getElem_mem (n := 1) (by decide), by decide⟩

example : Sample.embFt.storage = .quant Sample.q5 ∧ Sample.q5.norms = some [1, 2, 3, 4, 5] ∧
    Sample.q5.pq.projection = some ⟨2, [[1, 0], [0, 1]]⟩ := ⟨rfl, rfl, rfl⟩

end FF
