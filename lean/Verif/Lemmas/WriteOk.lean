import Verif.Lemmas.Built
/-! Sufficient conditions for writers to succeed. -/

namespace FF

variable {α β : Type}

theorem wr_bind_ok {w : Wr α} {f : α → Wr β} {s s' : Bytes} {a : α} (h : w s = (.ok a, s')) :
    (w >>= f) s = f a s' := by
  rw [wr_bind, h]

theorem wr_lift_ok (a : α) (s : Bytes) : Wr.lift (.ok a) s = (.ok a, s) := rfl

theorem wr_bytes_ok {bs s : Bytes} (h : (s ++ bs).length < maxSize) :
    Wr.bytes bs s = (.ok (), s ++ bs) := by
  simp [Wr.bytes, -List.length_append, h]

theorem wr_tell_ok (s : Bytes) : Wr.tell s = (.ok s.length, s) := rfl

theorem pack_eq {fs : List (Nat × Nat)} (h : ∀ f ∈ fs, f.2 < 256 ^ f.1) :
    pack fs = .ok (packRaw fs) := by
  unfold pack
  rw [if_pos]
  simpa using fun a b hab => h (a, b) hab

theorem writeBinary_ok {fs : List (Nat × Nat)} {s : Bytes} (h : ∀ f ∈ fs, f.2 < 256 ^ f.1)
    (hl : (s ++ packRaw fs).length < maxSize) :
    writeBinary fs s = (.ok (), s ++ packRaw fs) := by
  unfold writeBinary
  rw [pack_eq h, wr_bind_ok (wr_lift_ok _ _)]
  exact wr_bytes_ok hl

theorem encode_eq {w : PyStr} (h : w.any isSurrogate = false) : encode w = .ok (utf8 w) := by
  simp [encode, h]

theorem encodeAll_eq {ws : List PyStr} (h : ∀ w ∈ ws, w.any isSurrogate = false) :
    encodeAll ws = .ok (ws.map utf8) := by
  induction ws with
  | nil => rfl
  | cons w ws ih =>
    unfold encodeAll
    rw [encode_eq (h w (by simp)), ih fun w hw => h w (by simp [hw])]
    rfl

theorem byteLenSum_eq {ws : List PyStr} (h : ∀ w ∈ ws, w.any isSurrogate = false) :
    byteLenSum ws = .ok (byteSum ws) := by
  unfold byteLenSum
  rw [encodeAll_eq h]
  show Except.ok _ = _
  simp [byteSum, Function.comp_def]

theorem binaryListSize_eq {ws : List PyStr} (h : ∀ w ∈ ws, w.any isSurrogate = false) :
    binaryListSize ws = .ok (byteSum ws + 8 + ws.length * 4) := by
  unfold binaryListSize
  rw [byteLenSum_eq h]
  rfl

theorem writeWords_ok {ws : List PyStr} {s : Bytes} (h : ∀ w ∈ ws, ItemOk w)
    (hl : (s ++ wordsEnc ws).length < maxSize) : writeWords ws s = (.ok (), s ++ wordsEnc ws) := by
  induction ws generalizing s with
  | nil =>
    show (Except.ok (), s) = _
    simp [wordsEnc]
  | cons w ws ih =>
    have hw := h w (by simp)
    unfold writeWords forWr
    have hl' := hl
    simp only [wordsEnc, itemEnc, List.length_append, length_le] at hl'
    have h1 : (do
        let b ← Wr.lift (encode w)
        writeBinary [(4, b.length)]
        Wr.bytes b : Wr Unit) s = (.ok (), s ++ itemEnc w) := by
      rw [encode_eq hw.1, wr_bind_ok (wr_lift_ok _ _)]
      rw [wr_bind_ok (writeBinary_ok (by simpa using hw.2) (by simp [calcsize]; omega))]
      rw [wr_bytes_ok (by simp [calcsize]; omega)]
      simp [itemEnc, packRaw]
    rw [wr_bind_ok h1]
    have := ih (s := s ++ itemEnc w) (fun w hw => h w (by simp [hw]))
      (by rw [List.append_assoc]; exact hl)
    rw [show forWr (fun w => do
        let b ← Wr.lift (encode w)
        writeBinary [(4, b.length)]
        Wr.bytes b) ws = writeWords ws from rfl, this]
    simp [wordsEnc]

theorem packInt_ok {n : Nat} (h : n < 256 ^ 8) : packInt 8 (n : Int) = .ok (le 8 n) := by
  unfold packInt
  rw [if_pos (by omega), pack_eq (by simpa using h)]
  simp [packRaw]

theorem writeNgrams_ok {ix : ExplIndexer} {gs : List PyStr} {s : Bytes}
    (h : ∀ g ∈ gs, ItemOk g ∧ ngramIdx ix g < 256 ^ 8 ∧
        Dict.get? ix.index g = some (ngramIdx ix g : Int))
    (hl : (s ++ itemsIdxEnc (gs.map fun g => (g, ngramIdx ix g))).length < maxSize) :
    forWr (fun g => do
      let b ← Wr.lift (encode g)
      writeBinary [(4, b.length)]
      Wr.bytes b
      match Dict.get? ix.index g with
      | none => Wr.fail .keyError
      | some i => do
        let d ← Wr.lift (packInt 8 i)
        Wr.bytes d) gs s = (.ok (), s ++ itemsIdxEnc (gs.map fun g => (g, ngramIdx ix g))) := by
  induction gs generalizing s with
  | nil =>
    show (Except.ok (), s) = _
    simp [itemsIdxEnc]
  | cons g gs ih =>
    obtain ⟨hw, hi, hgt⟩ := h g (by simp)
    unfold forWr
    have hl' := hl
    simp only [List.map_cons, itemsIdxEnc, itemEnc, List.length_append, length_le] at hl'
    have h1 : (do
        let b ← Wr.lift (encode g)
        writeBinary [(4, b.length)]
        Wr.bytes b
        match Dict.get? ix.index g with
        | none => Wr.fail .keyError
        | some i => do
          let d ← Wr.lift (packInt 8 i)
          Wr.bytes d : Wr Unit) s = (.ok (), s ++ (itemEnc g ++ le 8 (ngramIdx ix g))) := by
      rw [encode_eq hw.1, wr_bind_ok (wr_lift_ok _ _)]
      rw [wr_bind_ok (writeBinary_ok (by simpa using hw.2) (by simp [calcsize]; omega))]
      rw [wr_bind_ok (wr_bytes_ok (by simp [calcsize]; omega))]
      rw [hgt]
      dsimp only
      rw [packInt_ok hi, wr_bind_ok (wr_lift_ok _ _)]
      rw [wr_bytes_ok (by simp [calcsize]; omega)]
      simp [itemEnc, packRaw]
    rw [wr_bind_ok h1]
    have := ih (s := s ++ (itemEnc g ++ le 8 (ngramIdx ix g))) (fun w hw => h w (by simp [hw]))
      (by simpa [itemsIdxEnc] using hl)
    rw [this]
    simp [itemsIdxEnc]

theorem maxSize_lt : maxSize < 256 ^ 8 := by decide

theorem vocabWrite_ok {v : Vocab} {s : Bytes} (hf : VocabFits v)
    (hl : (s ++ vocabEnc v).length < maxSize) : v.writeChunk s = (.ok (), s ++ vocabEnc v) := by
  obtain ⟨hw, hn, hsub⟩ := hf
  have hlen := vocabLen_eq v
  have hm := maxSize_lt
  have hws : ∀ w ∈ v.words, w.any isSurrogate = false := fun w hx => (hw w hx).1
  unfold vocabEnc at hl ⊢
  unfold Vocab.writeChunk
  unfold vocabBody vocabLen Vocab.chunkId at *
  rcases hs : v.sub with _ | (ix | ix | ix) <;> rw [hs] at hsub hlen hl <;> simp only at hsub hlen hl ⊢
  all_goals simp only [List.length_append, length_chunkHead, length_le, length_packRaw, List.map_cons,
    List.map_nil, calcsize, List.sum_cons, List.sum_nil, length_wordsEnc, length_itemsIdxEnc] at hl hlen
  · unfold writeSimpleVocab
    rw [wr_bind_ok (writeBinary_ok (by decide) (by simp [calcsize]; omega))]
    rw [byteLenSum_eq hws, wr_bind_ok (wr_lift_ok _ _)]
    simp only [calcsize, List.sum_cons, List.sum_nil, Nat.add_zero]
    rw [wr_bind_ok (writeBinary_ok (by
      intro f hfm
      simp only [List.mem_cons, List.not_mem_nil, or_false] at hfm
      rcases hfm with rfl | rfl <;> dsimp only <;> omega) (by simp [calcsize]; omega))]
    rw [writeWords_ok hw (by simp [calcsize, length_wordsEnc]; omega)]
    simp [chunkHead, packRaw]
  · unfold writeBucketVocab
    rw [binaryListSize_eq hws, wr_bind_ok (wr_lift_ok _ _)]
    simp only [calcsize, List.sum_cons, List.sum_nil, Nat.add_zero]
    rw [wr_bind_ok (writeBinary_ok (by
      intro f hfm
      simp only [List.mem_cons, List.not_mem_nil, or_false] at hfm
      rcases hfm with rfl | rfl | rfl | rfl | rfl | rfl <;> dsimp only [ChunkId.toNat] <;> omega)
      (by simp [calcsize]; omega))]
    rw [writeWords_ok hw (by simp [calcsize, length_wordsEnc]; omega)]
    simp [chunkHead, packRaw]
  · unfold writeBucketVocab
    rw [binaryListSize_eq hws, wr_bind_ok (wr_lift_ok _ _)]
    simp only [calcsize, List.sum_cons, List.sum_nil, Nat.add_zero]
    rw [wr_bind_ok (writeBinary_ok (by
      intro f hfm
      simp only [List.mem_cons, List.not_mem_nil, or_false] at hfm
      rcases hfm with rfl | rfl | rfl | rfl | rfl | rfl <;>
        dsimp only [ChunkId.toNat, FtIndexer.upperBound] <;> omega)
      (by simp [calcsize]; omega))]
    rw [writeWords_ok hw (by simp [calcsize, length_wordsEnc]; omega)]
    simp [chunkHead, packRaw, FtIndexer.upperBound]
  · unfold writeExplicitVocab
    have hgs : ∀ g ∈ ix.ngrams, g.any isSurrogate = false := fun g hg => (hsub.2.2.2 g hg).1.1
    have hit : (ngramItems ix).length = ix.ngrams.length := by simp [ngramItems]
    have hmap : (ngramItems ix).map Prod.fst = ix.ngrams := by
      simp [ngramItems, Function.comp_def]
    rw [hmap, hit] at hl hlen
    rw [binaryListSize_eq hws, wr_bind_ok (wr_lift_ok _ _)]
    rw [binaryListSize_eq hgs, wr_bind_ok (wr_lift_ok _ _)]
    simp only [calcsize, List.sum_cons, List.sum_nil, Nat.add_zero]
    rw [wr_bind_ok (writeBinary_ok (by
      intro f hfm
      simp only [List.mem_cons, List.not_mem_nil, or_false] at hfm
      rcases hfm with rfl | rfl | rfl | rfl | rfl | rfl <;>
        dsimp only [ChunkId.toNat] <;> omega)
      (by simp [calcsize]; omega))]
    rw [wr_bind_ok (writeWords_ok hw (by simp [calcsize, length_wordsEnc]; omega))]
    refine (writeNgrams_ok hsub.2.2.2 (by
      rw [show (ix.ngrams.map fun g => (g, ngramIdx ix g)) = ngramItems ix from rfl]
      simp [calcsize, length_wordsEnc, length_itemsIdxEnc, hmap, hit]; omega)).trans ?_
    simp [chunkHead, packRaw, ngramItems]


theorem ndWrite_ok {m : Mat F32} {s : Bytes} (hw : StorageWF (.nd m)) (hf : StorageFits (.nd m))
    (hl : (s ++ storageEnc s.length (.nd m)).length < maxSize) :
    writeNdArray m s = (.ok (), s ++ storageEnc s.length (.nd m)) := by
  have hm := maxSize_lt
  have hb := length_storageBody (padFloat32 (s.length + 4)) (.nd m) hw
  unfold storageEnc at hl ⊢
  rw [List.length_append, List.length_append, hb, length_chunkHead] at hl
  unfold writeNdArray
  simp only [storageLen, storageBody, ndLen, ndBody, Storage.chunkId] at *
  have hflat : m.flat.length = m.size := by
    simp [calcsize] at hb
    omega
  rw [wr_bind_ok (writeBinary_ok (by decide) (by simp [calcsize]; omega))]
  rw [wr_bind_ok (wr_tell_ok _)]
  have hpos : (s ++ packRaw [(4, ChunkId.ndArray.toNat)]).length = s.length + 4 := by
    simp [calcsize]
  rw [hpos]
  simp only [calcsize, List.sum_cons, List.sum_nil, Nat.add_zero, Nat.reduceAdd] at *
  rw [wr_bind_ok (writeBinary_ok (by
    intro f hfm
    have h1 := hf.1
    have h2 := hf.2
    simp only [List.mem_cons, List.not_mem_nil, or_false] at hfm
    rcases hfm with rfl | rfl | rfl | rfl <;> dsimp only [TypeId.toNat] <;> omega)
    (by simp [calcsize]; omega))]
  rw [wr_bind_ok (wr_bytes_ok (by simp [calcsize]; omega))]
  rw [wr_bytes_ok (by simp [calcsize]; omega)]
  simp [chunkHead, packRaw, TypeId.toNat]

theorem qWrite_ok {q : QArr F32} {s : Bytes} (hw : QWF q) (hf : QFits q)
    (hl : (s ++ storageEnc s.length (.quant q)).length < maxSize) :
    writeQuantized q s = (.ok (), s ++ storageEnc s.length (.quant q)) := by
  have hm := maxSize_lt
  have hb := length_storageBody (padFloat32 (s.length + 4)) (.quant q) hw
  unfold storageEnc at hl ⊢
  have hl2 := hl
  rw [List.length_append, List.length_append, hb, length_chunkHead] at hl
  unfold writeQuantized
  simp only [storageLen, storageBody, Storage.chunkId] at *
  simp only [qBody, List.length_append, length_chunkHead, length_zeros] at hl2
  have hqh : (qHead q).length = 36 := by simp [qHead]
  rw [hqh] at hl2
  rw [wr_bind_ok (writeBinary_ok (by decide) (by simp [calcsize]; omega))]
  rw [wr_bind_ok (wr_tell_ok _)]
  have hpos : (s ++ packRaw [(4, ChunkId.quantizedArray.toNat)]).length = s.length + 4 := by
    simp [calcsize]
  rw [hpos]
  have hlen : qLen (padFloat32 (s.length + 4)) q < 256 ^ 8 := by omega
  obtain ⟨f1, f2, f3, f4⟩ := hf
  have hif : ∀ b : Bool, (if b then 1 else 0) < 256 ^ 4 := by decide
  have hq : ∀ n : Nat, calcsize [4, 4, 4, 4, 4, 8, 4, 4] + n = 36 + n := fun _ => rfl
  simp only [hq]
  rw [wr_bind_ok (writeBinary_ok (by
    intro f hfm
    simp only [List.mem_cons, List.not_mem_nil, or_false] at hfm
    rcases hfm with rfl | rfl | rfl | rfl | rfl | rfl | rfl | rfl | rfl
    · exact hlen
    · exact hif _
    · exact hif _
    · exact f1
    · exact f2
    · exact f3
    · exact f4
    · decide
    · decide)
    (by simp [calcsize]; omega))]
  rw [wr_bind_ok (wr_bytes_ok (by simp [calcsize]; omega))]
  cases hp : q.pq.projection with
  | none =>
    rw [hp] at hl2
    simp only [Option.map_none, optF32, List.length_nil] at hl2
    dsimp only
    rw [wr_bind_ok (wr_bytes_ok (by
      simp only [List.length_append, length_packRaw, length_zeros, List.map_cons, List.map_nil, calcsize,
        List.sum_cons, List.sum_nil]
      omega))]
    cases hn : q.norms with
    | none =>
      rw [hn] at hl2
      simp only [List.length_nil] at hl2
      dsimp only
      rw [wr_bytes_ok (by
        simp only [List.length_append, length_packRaw, length_zeros, List.map_cons, List.map_nil, calcsize,
          List.sum_cons, List.sum_nil]
        omega)]
      simp [chunkHead, packRaw, qBody, qHead, qLen, optF32, TypeId.toNat, hp, hn]
    | some n =>
      rw [hn] at hl2
      dsimp only at hl2 ⊢
      rw [wr_bind_ok (wr_bytes_ok (by
        simp only [List.length_append, length_packRaw, length_zeros, List.map_cons, List.map_nil, calcsize,
          List.sum_cons, List.sum_nil]
        omega))]
      rw [wr_bytes_ok (by
        simp only [List.length_append, length_packRaw, length_zeros, List.map_cons, List.map_nil, calcsize,
          List.sum_cons, List.sum_nil]
        omega)]
      simp [chunkHead, packRaw, qBody, qHead, qLen, optF32, TypeId.toNat, hp, hn]
  | some p =>
    rw [hp] at hl2
    simp only [Option.map_some, optF32] at hl2
    dsimp only
    rw [wr_bind_ok (wr_bytes_ok (by
      simp only [List.length_append, length_packRaw, length_zeros, List.map_cons, List.map_nil, calcsize,
        List.sum_cons, List.sum_nil]
      omega))]
    rw [wr_bind_ok (wr_bytes_ok (by
      simp only [List.length_append, length_packRaw, length_zeros, List.map_cons, List.map_nil, calcsize,
        List.sum_cons, List.sum_nil]
      omega))]
    cases hn : q.norms with
    | none =>
      rw [hn] at hl2
      simp only [List.length_nil] at hl2
      dsimp only
      rw [wr_bytes_ok (by
        simp only [List.length_append, length_packRaw, length_zeros, List.map_cons, List.map_nil, calcsize,
          List.sum_cons, List.sum_nil]
        omega)]
      simp [chunkHead, packRaw, qBody, qHead, qLen, optF32, TypeId.toNat, hp, hn]
    | some n =>
      rw [hn] at hl2
      dsimp only at hl2 ⊢
      rw [wr_bind_ok (wr_bytes_ok (by
        simp only [List.length_append, length_packRaw, length_zeros, List.map_cons, List.map_nil, calcsize,
          List.sum_cons, List.sum_nil]
        omega))]
      rw [wr_bytes_ok (by
        simp only [List.length_append, length_packRaw, length_zeros, List.map_cons, List.map_nil, calcsize,
          List.sum_cons, List.sum_nil]
        omega)]
      simp [chunkHead, packRaw, qBody, qHead, qLen, optF32, TypeId.toNat, hp, hn]

theorem storageWrite_ok {st : Storage F32} {s : Bytes} (hw : StorageWF st) (hf : StorageFits st)
    (hl : (s ++ storageEnc s.length st).length < maxSize) :
    st.writeChunk s = (.ok (), s ++ storageEnc s.length st) := by
  cases st with
  | nd m => exact ndWrite_ok hw hf hl
  | quant q => exact qWrite_ok hw hf hl

theorem normsWrite_ok {n : List F32} {s : Bytes}
    (hl : (s ++ normsEnc s.length (some n)).length < maxSize) :
    writeNorms n s = (.ok (), s ++ normsEnc s.length (some n)) := by
  have hm := maxSize_lt
  unfold normsEnc at hl ⊢
  dsimp only at hl ⊢
  rw [List.length_append, List.length_append, length_normsBody, length_chunkHead] at hl
  unfold writeNorms writeNormsRaw
  simp only [normsLen] at *
  rw [wr_bind_ok (writeBinary_ok (by decide) (by simp [calcsize]; omega))]
  rw [wr_bind_ok (wr_tell_ok _)]
  have hpos : (s ++ packRaw [(4, ChunkId.ndNorms.toNat)]).length = s.length + 4 := by
    simp [calcsize]
  rw [hpos]
  simp only [calcsize, List.sum_cons, List.sum_nil, Nat.add_zero, Nat.reduceAdd] at *
  rw [wr_bind_ok (writeBinary_ok (by
    intro f hfm
    simp only [List.mem_cons, List.not_mem_nil, or_false] at hfm
    rcases hfm with rfl | rfl | rfl <;> dsimp only [TypeId.toNat] <;> omega)
    (by simp [calcsize]; omega))]
  rw [wr_bind_ok (wr_bytes_ok (by simp [calcsize]; omega))]
  rw [wr_bytes_ok (by simp [calcsize]; omega)]
  simp [chunkHead, packRaw, normsBody, TypeId.toNat]

theorem metaWrite_ok {T : Toml} {m : Meta} {str : PyStr} {s : Bytes} (hd : T.dumps m = .ok str)
    (he : str.any isSurrogate = false) (hl : (s ++ metaBody (utf8 str)).length < maxSize) :
    writeMetadata T m s = (.ok (), s ++ metaBody (utf8 str)) := by
  have hm := maxSize_lt
  simp only [metaBody, List.length_append, length_chunkHead] at hl
  unfold writeMetadata
  rw [hd, wr_bind_ok (wr_lift_ok _ _), encode_eq he, wr_bind_ok (wr_lift_ok _ _)]
  rw [wr_bind_ok (writeBinary_ok (by
    intro f hfm
    simp only [List.mem_cons, List.not_mem_nil, or_false] at hfm
    rcases hfm with rfl | rfl <;> dsimp only [ChunkId.toNat] <;> omega)
    (by simp [calcsize]; omega))]
  rw [wr_bytes_ok (by simp [calcsize]; omega)]
  simp [metaBody, chunkHead]

theorem length_headerEnc (ids : List Nat) : (headerEnc ids).length = 12 + 4 * ids.length := by
  simp [headerEnc, magic, Function.comp_def, calcsize]; omega

theorem writeHeader_ok {ids : List Nat} {s : Bytes} (h1 : ids.length < 256 ^ 4)
    (h2 : ∀ i ∈ ids, i < 256 ^ 4) (hl : (s ++ headerEnc ids).length < maxSize) :
    writeHeader ids s = (.ok (), s ++ headerEnc ids) := by
  have hh := length_headerEnc ids
  rw [List.length_append, hh] at hl
  unfold writeHeader
  rw [wr_bind_ok (wr_bytes_ok (by simp [magic]; omega))]
  rw [writeBinary_ok ?_ ?_]
  · simp [headerEnc, packRaw]
  · intro f hfm
    simp only [List.mem_cons, List.mem_map] at hfm
    rcases hfm with rfl | rfl | ⟨i, hi, rfl⟩
    · decide
    · exact h1
    · exact h2 i hi
  · have := calcsize_replicate ids.length
    simp [packRaw, magic, Function.comp_def, this]; omega

/-- A file written for embeddings with this layout. -/
theorem embWrite_ok {T : Toml} {e : Embeddings F32} {mb bs : Bytes} (hw : StorageWF e.storage)
    (h : EmbBytes T e mb bs) : (e.write T).file = (.ok (), bs) := by
  have hsz := h.size
  obtain ⟨hmeta, heq, hvf, hvl, hsf, hsl, hnl, _⟩ := h
  show e.write T [] = _
  rw [embWrite_eq]
  subst heq
  simp only [List.length_append] at hsz
  rw [wr_bind_ok (writeHeader_ok (chunkIds_len e) (chunkIds_lt e) (by
    simp only [List.nil_append]; omega))]
  simp only [List.nil_append]
  have h2 : (match e.metadata with
      | some m => writeMetadata T m
      | none => pure () : Wr Unit) (headerEnc (e.chunkIds.map ChunkId.toNat)) =
      (.ok (), headerEnc (e.chunkIds.map ChunkId.toNat) ++ mb) := by
    cases hm : e.metadata with
    | none =>
      rw [hm] at hmeta
      have : mb = [] := hmeta
      subst this
      simp
    | some m =>
      rw [hm] at hmeta
      obtain ⟨str, hd, he, _, rfl⟩ := hmeta
      exact metaWrite_ok hd (encode_ok he).2 (by simp only [List.length_append]; omega)
  refine (wr_bind_ok h2).trans ?_
  rw [wr_bind_ok (vocabWrite_ok hvf (by simp only [List.length_append]; omega))]
  rw [wr_bind_ok (storageWrite_ok hw hsf (by simp only [List.length_append]; omega))]
  cases hn : e.norms with
  | none => simp [normsEnc]
  | some n =>
    rw [hn] at hsz
    dsimp only
    rw [normsWrite_ok (by simp only [List.length_append]; omega)]
    simp

end FF
