import Verif.Lemmas.Append
import Verif.Props.C59
import Verif.Props.C62
import Verif.Props.C38
import Verif.Props.C42
import Verif.Props.C61
import Verif.Props.C01
import Verif.Spec.Joined
/-! C97: what follows a file. -/

namespace FF
open Fifu

/-! ### finalfusion -/

/-- Whatever is put after a file that loads: if the result loads, then with the same metadata, vocabulary and
storage.  Norms stay the same; a file without norms can only have got norms. -/
theorem C97_finalfusion (T : Toml) (mmap : Bool) (bs more : Bytes) (e e' : Embeddings F32)
    (hlen : (bs ++ more).length + 4 < 2 ^ 63) (h : Rd.run (loadFinalfusion T mmap) bs = .ok e)
    (h' : Rd.run (loadFinalfusion T mmap) (bs ++ more) = .ok e') :
    e' = e ∨ e.norms = none ∧ ∃ ns, e' = { e with norms := some ns } := by
  have hbs : bs.length + 4 < 2 ^ 63 := by rw [List.length_append] at hlen; omega
  obtain ⟨p1, p2, p3, p4, a1, a2, a3, a4, a5, a6⟩ := (loadFinalfusion_iff T mmap bs e hbs).mp h
  obtain ⟨q1, q2, q3, q4, b1, b2, b3, b4, b5, b6⟩ := (loadFinalfusion_iff T mmap _ e' hlen).mp h'
  have l3 := storageAt_head a4
  have l2 := vocabAt_le a3
  have l1 := metaAt_le a2
  have hb := eqBelow_append bs more
  obtain ⟨e1, e2, e3, e4⟩ := parts_unique hlen (hb.header a1 (by omega)) (hb.meta a2 (by omega))
    (hb.vocab a3 (by omega)) (storageAt_append a4 more) b1 b2 b3 b4
  obtain ⟨st, v, nm, md⟩ := e
  obtain ⟨st', v', nm', md'⟩ := e'
  simp only at *
  subst e1 e2 e3 e4
  cases nm with
  | some xs =>
    rw [normsAt_append more hlen a5 b5]
    exact .inl rfl
  | none =>
    cases nm' with
    | none => exact .inl rfl
    | some ns => exact .inr ⟨rfl, ns, rfl⟩

/-- After a file that was written with norms, anything may follow. -/
theorem C97_finalfusion_norms (T : Toml) (e : Embeddings F32) (bs more : Bytes) (he : BuiltEmb e)
    (hg : HasNgrams e.vocab) (hT : TomlOk T e.metadata) (hn : e.norms ≠ none)
    (hw : (e.write T).file = (.ok (), bs)) :
    ∃ e', Rd.run (loadFinalfusion T false) (bs ++ more) = .ok e' ∧ Rd.run (loadFinalfusion T false) bs = .ok e' ∧
      SameEmb e e' := by
  obtain ⟨mb, h⟩ := embWrite_inv hw
  have hwf := he.wf hg
  exact ⟨canonEmb e, embLoad_more more hn h (chunkIds_ne e) (chunkIds_len e) (chunkIds_lt e) hwf hT,
    embLoad h hwf hT, canonVocab_same hwf.vocab h.vfits, rfl, rfl, rfl⟩

/-- A file without norms with another file after it does not load. -/
theorem C97_finalfusion_two (T : Toml) (mmap : Bool) (b1 b2 : Bytes) (e1 : Embeddings F32) (start : Nat)
    (hlen : (b1 ++ b2).length + 4 < 2 ^ 63) (h1 : Rd.run (loadFinalfusion T mmap) b1 = .ok e1)
    (hn : e1.norms = none) (h2 : HeaderAt b2 start) :
    ∃ er, Rd.run (loadFinalfusion T mmap) (b1 ++ b2) = .error er := by
  cases hr : Rd.run (loadFinalfusion T mmap) (b1 ++ b2) with
  | error er => exact ⟨er, rfl⟩
  | ok e =>
    exfalso
    have hbs : b1.length + 4 < 2 ^ 63 := by rw [List.length_append] at hlen; omega
    obtain ⟨p1, p2, p3, p4, a1, a2, a3, a4, a5, a6⟩ := (loadFinalfusion_iff T mmap b1 e1 hbs).mp h1
    obtain ⟨q1, q2, q3, q4, c1, c2, c3, c4, c5, c6⟩ := (loadFinalfusion_iff T mmap _ e hlen).mp hr
    have l3 := storageAt_head a4
    have l2 := vocabAt_le a3
    have l1 := metaAt_le a2
    have hb := eqBelow_append b1 b2
    obtain ⟨-, -, -, e4⟩ := parts_unique hlen (hb.header a1 (by omega)) (hb.meta a2 (by omega))
      (hb.vocab a3 (by omega)) (storageAt_append a4 b2) c1 c2 c3 c4
    subst e4
    rw [hn] at a5
    have h5 : b1.length ≤ p4 := a5
    have h6 := storageAt_stop a4
    obtain ⟨ids, hne, _, _, hat, _⟩ := h2
    have hpos := List.length_pos_iff.mpr hne
    have hh : [0x46, 0x69, 0x46, 0x75, 0, 0, 0, 0] <+: b2 := by
      unfold HasAt at hat
      rw [List.drop_zero, List.append_assoc] at hat
      exact (List.prefix_append _ _).trans (by
        have : ([0x46, 0x69, 0x46, 0x75] : Bytes) ++ uint 4 0 = [0x46, 0x69, 0x46, 0x75, 0, 0, 0, 0] := by decide
        rw [← this, List.append_assoc]
        exact hat)
    obtain ⟨rest, rfl⟩ := hh
    cases hnm : e.norms with
    | none =>
      rw [hnm] at c5
      have c5 : (b1 ++ _).length ≤ p4 := c5
      simp only [List.length_append, List.length_cons, List.length_nil] at c5
      omega
    | some ns =>
      rw [hnm] at c5
      obtain ⟨_, _, ⟨len, _, hhd⟩, _⟩ := c5
      have hb6 : (b1 ++ ([0x46, 0x69, 0x46, 0x75, 0, 0, 0, 0] ++ rest))[p4]? = some 6 := by
        have := hasAt_iff_get.mp hhd 0 (by simp)
        simpa [show (uint 4 6)[0] = 6 from rfl] using this
      rw [List.getElem?_append_right h5] at hb6
      obtain hk | hk | hk | hk | hk : p4 - b1.length = 0 ∨ p4 - b1.length = 1 ∨ p4 - b1.length = 2 ∨
        p4 - b1.length = 3 ∨ p4 - b1.length = 4 := by omega
      all_goals rw [hk] at hb6; simp at hb6

section
variable {K : Type} [NumOps K]

/-! ### word2vec and fastText -/

/-- After a file that `write_word2vec` wrote, anything may follow. -/
theorem C97_word2vec [Codec K] (lossy : Bool) (e : Embeddings K) (he : BuiltEmb e)
    (hw : ∀ w ∈ e.vocab.words, W2vWord w) (hs : ShapeOk e.vocab.words.length e.storage.nCols) (bs : Bytes)
    (h : (writeWord2vec e).file = (.ok (), bs)) :
    ∃ e' : Embeddings K, ∀ more, Rd.run (loadWord2vec lossy) (bs ++ more) = .ok e' := by
  obtain ⟨vs, hv, _, rfl⟩ := writeWord2vec_inv he h
  have hf := fileRows_fst (K := K) hv.1
  have hsn := fileRows_snd (K := K) hv.1
  have hlen : ∀ p ∈ fileRows e.vocab.words vs, p.2.length = e.storage.nCols := by
    intro p hp
    have : p.2 ∈ (fileRows e.vocab.words vs).map Prod.snd := List.mem_map_of_mem hp
    rw [hsn] at this
    obtain ⟨v, hvm, hvp⟩ := List.mem_map.mp this
    obtain ⟨i, hi, rfl⟩ := List.getElem_of_mem hvm
    rw [← hvp, List.length_map]
    exact exported_length he (hv.2 i _ (List.getElem?_eq_getElem hi))
  have hp := loadWord2vec_parses (K := K) lossy (fileRows e.vocab.words vs)
    (fun p hp => hw _ (by rw [← hf]; exact List.mem_map_of_mem hp)) hlen
    (by rw [hf]; exact he.vocab.nodup) (by rw [fileRows_length hv.1]; exact hs)
  refine ⟨w2vResult e.storage.nCols ((fileRows e.vocab.words vs).map fun p => (p.1, p.2.map Codec.ofBits)), fun more => ?_⟩
  rw [w2vFile_eq, List.append_assoc]
  exact hp.run _

/-- After a fastText model, anything may follow. -/
theorem C97_fasttext [Codec K] (f : FtFile) (hf : f.OK) (lossy : Bool) :
    ∃ e : Embeddings K, ∀ more, Rd.run (loadFasttext lossy) (f.bytes ++ more) = .ok e := by
  obtain ⟨e, h1, h2⟩ := C42_load (K := K) f hf lossy
  refine ⟨e, fun more => ?_⟩
  obtain ⟨e', h1', h2'⟩ := C42_load (K := K) { f with output := f.output ++ more }
    ⟨hf.ints, hf.buckets, hf.range, hf.prune, hf.count, hf.nul, hf.text, hf.nodup, hf.shape, hf.cols, hf.size⟩ lossy
  have e1 : f.bytes ++ more = ({ f with output := f.output ++ more } : FtFile).bytes := by
    unfold FtFile.bytes
    exact List.append_assoc _ _ _
  rw [e1, h1']
  exact congrArg _ (C62_unique f _ e' e h2' h2)

/-! ### Text -/

variable [NumText K]

omit [NumText K] in
theorem normalized_iff {cols : Nat} {words : List PyStr} {vs : List (List K)} {e : Embeddings K} :
    Normalized cols words vs e ↔ e.vocab.words = words ∧ e.vocab.sub = none ∧ BuiltVocab e.vocab ∧ e.metadata = none ∧
      e.norms = some (vs.map NumOps.normAxis) ∧
      e.storage = .nd ⟨cols, vs.map fun v => v.map fun x => NumOps.div x (NumOps.normAxis v)⟩ := by
  unfold Normalized
  constructor
  · rintro ⟨a1, a2, a3, a4, a5, rows, a6, a7, a8⟩
    refine ⟨a1, a2, a3, a4, a5, ?_⟩
    rw [a6]
    have : rows = vs.map fun v => v.map fun x => NumOps.div x (NumOps.normAxis v) := by
      refine List.ext_getElem? fun i => ?_
      rw [List.getElem?_map]
      cases hv : vs[i]? with
      | none =>
        rw [List.getElem?_eq_none_iff] at hv
        rw [List.getElem?_eq_none (by omega)]; rfl
      | some v => rw [a8 i v hv]; rfl
    rw [this]
  · rintro ⟨a1, a2, a3, a4, a5, a6⟩
    refine ⟨a1, a2, a3, a4, a5, _, a6, by simp, ?_⟩
    intro i v hv
    rw [List.getElem?_map, hv]; rfl

omit [NumText K] in
/-- Embeddings of the words and vectors of two embeddings. -/
theorem normalized_joined {c1 c2 : Nat} {w1 w2 : List PyStr} {v1 v2 : List (List K)} {e1 e2 e : Embeddings K}
    (h1 : Normalized c1 w1 v1 e1) (h2 : Normalized c2 w2 v2 e2) :
    Normalized c1 (w1 ++ w2) (v1 ++ v2) e ↔ Joined e1 e2 e := by
  rw [normalized_iff] at h1 h2 ⊢
  obtain ⟨a1, a2, a3, a4, a5, a6⟩ := h1
  obtain ⟨b1, b2, b3, b4, b5, b6⟩ := h2
  unfold Joined
  rw [a1, b1, a5, b5, a6, b6]
  constructor
  · rintro ⟨c1, c2, c3, c4, c5, c6⟩
    exact ⟨c1, c2, c3, c4, ⟨_, _, rfl, rfl, by rw [c5, List.map_append]⟩, _, _, rfl, rfl, by rw [c6, List.map_append]⟩
  · rintro ⟨c1, c2, c3, c4, ⟨n1, n2, c5, c6, c7⟩, m1, m2, c8, c9, c10⟩
    cases c5; cases c6; cases c8; cases c9
    exact ⟨c1, c2, c3, c4, by rw [c7, List.map_append], by rw [c10, List.map_append]⟩

omit [NumOps K] in
theorem readsAs_unique {cols : Nat} {ls : List PyStr} {rs rs' : List (PyStr × List K)}
    (h : List.Forall₂ (ReadsAs cols) ls rs) (h' : List.Forall₂ (ReadsAs cols) ls rs') : rs = rs' := by
  induction h generalizing rs' with
  | nil => cases h'; rfl
  | cons h _ ih =>
    cases h' with
    | cons k k' =>
      rw [ih k']
      have := (readsAs_iff.mpr h).symm.trans (readsAs_iff.mpr k)
      cases this
      rfl

/-- Two text files of the same number of dimensions, the first of which ends with a line feed, one after the
other: they load as the words and vectors of the first and then of the second, and they do exactly if they have
no word in common (and the matrix can be allocated). -/
theorem C97_text [TextIO] (lossy : Bool) (b1 b2 : Bytes) (e1 e2 e : Embeddings K)
    (h1 : loadText lossy b1 = .ok e1) (h2 : loadText lossy b2 = .ok e2) (hl : b1.getLast? = some 10)
    (hc : e1.storage.nCols = e2.storage.nCols) :
    loadText lossy (b1 ++ b2) = .ok e ↔
      (∀ w ∈ e1.vocab.words, w ∉ e2.vocab.words) ∧
      ShapeOk (e1.vocab.words.length + e2.vocab.words.length) e1.storage.nCols ∧ Joined e1 e2 e := by
  obtain ⟨t1, f1, w1, ps1, ls1, rs1, d1, s1, k1, r1, n1, sh1, z1⟩ := (C59_text lossy b1 e1).mp h1
  obtain ⟨t2, f2, w2, ps2, ls2, rs2, d2, s2, k2, r2, n2, sh2, z2⟩ := (C59_text lossy b2 e2).mp h2
  have hc1 : e1.storage.nCols = ps1.length := by
    have := (normalized_iff.mp z1).2.2.2.2.2
    rw [this]; rfl
  have hc2 : e2.storage.nCols = ps2.length := by
    have := (normalized_iff.mp z2).2.2.2.2.2
    rw [this]; rfl
  have hcc : ps2.length = ps1.length := by omega
  have hd := decodesTo_append d1 d2 (.inr hl)
  have hs := splitLines_joined s1 s2 (.inr (decodesTo_last d1 hl))
  have hr : List.Forall₂ (ReadsAs ps1.length) (f1 :: ls1 ++ f2 :: ls2) (rs1 ++ rs2) := by
    rw [hcc] at r2
    exact List.rel_append r1 r2
  have hw1 := (normalized_iff.mp z1).1
  have hw2 := (normalized_iff.mp z2).1
  have hj : Normalized ps1.length ((rs1 ++ rs2).map Prod.fst) ((rs1 ++ rs2).map Prod.snd) e ↔ Joined e1 e2 e := by
    rw [List.map_append, List.map_append]
    exact normalized_joined z1 z2
  have hnd : ((rs1 ++ rs2).map Prod.fst).Nodup ↔ ∀ w ∈ e1.vocab.words, w ∉ e2.vocab.words := by
    rw [List.map_append, List.nodup_append, hw1, hw2]
    constructor
    · rintro ⟨_, _, h⟩ w hw hw'
      exact h w hw w hw' rfl
    · intro h
      exact ⟨n1, n2, fun a ha b hb hab => h a ha (hab ▸ hb)⟩
  have hsh : (rs1 ++ rs2).length = e1.vocab.words.length + e2.vocab.words.length := by
    rw [hw1, hw2]; simp
  rw [C59_text]
  constructor
  · rintro ⟨t, f, w, ps, ls, rs, d, s, k, r, n, sh, z⟩
    have ht : t = t1 ++ t2 := by
      have := (decodeLossy_iff.mpr d).symm.trans (decodeLossy_iff.mpr hd)
      cases this
      rfl
    subst ht
    have hls := splitLines_unique s hs
    rw [List.cons_append] at hls
    cases hls
    obtain ⟨⟨_, _⟩, _, huniq⟩ := C41_fields f1
    have hp := (huniq (w, ps) k).trans (huniq (w1, ps1) k1).symm
    cases hp
    rw [List.cons_append] at hr
    have := readsAs_unique r hr
    subst this
    exact ⟨hnd.mp n, by rw [← hsh, hc1]; exact sh, hj.mp z⟩
  · rintro ⟨n, sh, z⟩
    exact ⟨_, f1, w1, ps1, ls1 ++ f2 :: ls2, rs1 ++ rs2, hd, by rw [← List.cons_append]; exact hs, k1,
      by rw [← List.cons_append]; exact hr, hnd.mpr n, by rw [hsh, ← hc1]; exact sh, hj.mpr z⟩

/-- After a file with dimensions that ends with a line feed, any text may follow. -/
theorem C97_text_dims [TextIO] (lossy : Bool) (b1 b2 : Bytes) (e : Embeddings K)
    (h : loadTextDims lossy b1 = .ok e) (hl : b1.getLast? = some 10) (t1 t2 : PyStr)
    (h1 : DecodesTo lossy b1 t1) (h2 : DecodesTo lossy b2 t2) : loadTextDims lossy (b1 ++ b2) = .ok e := by
  rw [C59_dims] at h ⊢
  obtain ⟨first, cols, lines, rs, hy, rest⟩ := h
  refine ⟨first, cols, lines, rs, ?_, rest⟩
  obtain ⟨more, stop, hy⟩ := yieldsFirst_iff.mp hy
  obtain ⟨ls2, hs2⟩ := splitLines_total t2
  rcases hy with ⟨text, hd, hs, _⟩ | ⟨rfl, hno, _⟩
  · refine .inl ⟨text ++ t2, more ++ ls2, decodesTo_append hd h2 (.inr hl), ?_⟩
    rw [← List.append_assoc]
    exact splitLines_joined hs hs2 (.inr (decodesTo_last hd hl))
  · exact absurd ⟨t1, h1⟩ hno

end

/-! ### The hypotheses can be met -/

namespace Sample

/-- A file with explicit n-grams and norms, and the same file again. -/
example : ∃ bs e', bs ≠ [] ∧ Rd.run (loadFinalfusion toml false) (bs ++ bs) = .ok e' ∧
    Rd.run (loadFinalfusion toml false) bs = .ok e' := by
  obtain ⟨e', h1, h2, _⟩ := C97_finalfusion_norms toml embExpl _ (embExpl.write toml).file.2 builtEmbExpl ngExpl
    tomlExpl (by decide) (file_ok (by decide +kernel))
  exact ⟨_, e', by decide +kernel, h1, h2⟩

/-- A file without norms twice. -/
example : ∃ er, Rd.run (loadFinalfusion toml true) (oddFile ++ oddFile) = .error er :=
  C97_finalfusion_two toml true oddFile oddFile oddEmb 16 (by decide +kernel)
    ((C61_load toml true oddFile oddEmb (by decide)).mpr oddFile_file) rfl
    ⟨[9], by decide, by decide, by decide, by decide +kernel, rfl⟩

/-- A file without norms can get norms. -/
def oddNorms : Bytes :=
  [6, 0, 0, 0, 9, 9, 9, 9, 9, 9, 9, 9, 1, 0, 0, 0, 0, 0, 0, 0, 10, 0, 0, 0, 1, 1, 1, 1, 7, 0, 0, 0]

theorem oddNorms_loads : Rd.run (loadFinalfusion toml true) (oddFile ++ oddNorms) =
    .ok { oddEmb with norms := some [7] } := by
  obtain ⟨e', h⟩ : ∃ e', Rd.run (loadFinalfusion toml true) (oddFile ++ oddNorms) = .ok e' :=
    ok_of_errOf (by decide +kernel)
  have hn : normsOf (Rd.run (loadFinalfusion toml true) (oddFile ++ oddNorms)) = some [7] := by decide +kernel
  rw [h] at hn ⊢
  have hn : e'.norms = some [7] := hn
  rcases C97_finalfusion toml true oddFile oddNorms oddEmb e' (by decide +kernel)
    ((C61_load toml true oddFile oddEmb (by decide)).mpr oddFile_file) h with rfl | ⟨_, ns, rfl⟩
  · cases hn
  · have : ns = [7] := Option.some.inj hn
    rw [this]

example : ∃ e', ∀ more, Rd.run (@loadWord2vec F32 f32Ops _ false)
    ((@writeWord2vec F32 f32Ops _ embBucket).file.2 ++ more) = .ok e' :=
  @C97_word2vec F32 f32Ops _ false embBucket builtEmbBucket w2vWords (by unfold ShapeOk; decide) _
    (file_ok (by decide +kernel))

example : ∃ e : Embeddings F32, ∀ more, Rd.run (@loadFasttext F32 f32Ops _ false) (ftFile2.bytes ++ more) = .ok e :=
  @C97_fasttext F32 f32Ops _ ftFile2 ftFile2_ok false

def colsOf (r : Res (Embeddings F32)) : Option Nat :=
  match r with
  | .ok e => some e.storage.nCols
  | .error _ => none

/-- `a 1 2` and `b 3 4`, `c 5`. -/
def catText1 : PyStr := [97, 32, 49, 32, 50, 10]
def catText2 : PyStr := [98, 32, 51, 32, 52, 13, 99, 32, 53]

example : ∃ e1 e2 e, @loadText F32 f32Ops f32Text textIO false (utf8 catText1) = .ok e1 ∧
    @loadText F32 f32Ops f32Text textIO false (utf8 catText2) = .ok e2 ∧
    @loadText F32 f32Ops f32Text textIO false (utf8 catText1 ++ utf8 catText2) = .ok e ∧ Joined e1 e2 e := by
  obtain ⟨e1, h1⟩ : ∃ e, @loadText F32 f32Ops f32Text textIO false (utf8 catText1) = .ok e :=
    ok_of_errOf (by decide +kernel)
  obtain ⟨e2, h2⟩ : ∃ e, @loadText F32 f32Ops f32Text textIO false (utf8 catText2) = .ok e :=
    ok_of_errOf (by decide +kernel)
  obtain ⟨e, h⟩ : ∃ e, @loadText F32 f32Ops f32Text textIO false (utf8 catText1 ++ utf8 catText2) = .ok e :=
    ok_of_errOf (by decide +kernel)
  have c1 : colsOf (@loadText F32 f32Ops f32Text textIO false (utf8 catText1)) = some 2 := by decide +kernel
  have c2 : colsOf (@loadText F32 f32Ops f32Text textIO false (utf8 catText2)) = some 2 := by decide +kernel
  rw [h1] at c1
  rw [h2] at c2
  refine ⟨e1, e2, e, h1, h2, h, ?_⟩
  exact ((@C97_text F32 f32Ops f32Text textIO false _ _ e1 e2 e h1 h2 (by decide +kernel)
    (Option.some.inj (c1.trans c2.symm))).mp h).2.2

/-- The same file twice has every word twice. -/
example (e : Embeddings F32) :
    @loadText F32 f32Ops f32Text textIO false (utf8 catText1 ++ utf8 catText1) ≠ .ok e := by
  obtain ⟨e1, h1⟩ : ∃ e, @loadText F32 f32Ops f32Text textIO false (utf8 catText1) = .ok e :=
    ok_of_errOf (by decide +kernel)
  intro h
  have := ((@C97_text F32 f32Ops f32Text textIO false _ _ e1 e1 e h1 h1 (by decide +kernel) rfl).mp h).1
  obtain ⟨text, first, w0, ps0, lines, rs, _, _, _, hr, _, _, hz⟩ := (@C59_text F32 f32Text f32Ops textIO false _ e1).mp h1
  obtain ⟨r, rs', rfl⟩ : ∃ r rs', rs = r :: rs' := by cases hr; exact ⟨_, _, rfl⟩
  have hw : r.1 ∈ e1.vocab.words := by rw [hz.1]; simp
  exact this _ hw hw

/-- `1 2`, `a 1 2`, then `x y`. -/
example : ∃ e, @loadTextDims F32 f32Ops f32Text textIO false (utf8 ([49, 32, 50, 10] ++ catText1)) = .ok e ∧
    @loadTextDims F32 f32Ops f32Text textIO false (utf8 ([49, 32, 50, 10] ++ catText1) ++ utf8 [120, 32, 121]) = .ok e := by
  obtain ⟨e, h⟩ : ∃ e, @loadTextDims F32 f32Ops f32Text textIO false (utf8 ([49, 32, 50, 10] ++ catText1)) = .ok e :=
    ok_of_errOf (by decide +kernel)
  exact ⟨e, h, @C97_text_dims F32 f32Ops f32Text textIO false _ _ e h (by decide +kernel) _ _
    (utf8Text_iff.mpr ⟨rfl, by decide⟩) (utf8Text_iff.mpr ⟨rfl, by decide⟩)⟩

end Sample

end FF
