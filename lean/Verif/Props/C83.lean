import Verif.Lemmas.MemoryCompat
import Verif.Props.C17
import Verif.Props.C42
import Verif.Props.C80
/-!
# C83: the memory that loading the other formats requests
-/

namespace FF

section
variable {K : Type} [NumOps K]

/-- A small budget never changes the result: the loaders with a budget return what those without one return, exceptions
included, or run out of memory. -/
theorem C83_same [Codec K] [NumText K] [TextIO] (lossy : Bool) (M : Nat) (bs : Bytes) :
    (MRd.run (Mem.loadWord2vec lossy : MRd (Embeddings K)) M bs = (Rd.run (loadWord2vec lossy) bs).mapError .py ∨
      MRd.run (Mem.loadWord2vec lossy : MRd (Embeddings K)) M bs = .error .memory) ∧
    (MRd.run (Mem.loadFasttext lossy : MRd (Embeddings K)) M bs = (Rd.run (loadFasttext lossy) bs).mapError .py ∨
      MRd.run (Mem.loadFasttext lossy : MRd (Embeddings K)) M bs = .error .memory) ∧
    ((Mem.loadText lossy M bs : Except Stop (Embeddings K)) = (loadText lossy bs).mapError .py ∨
      (Mem.loadText lossy M bs : Except Stop (Embeddings K)) = .error .memory) ∧
    ((Mem.loadTextDims lossy M bs : Except Stop (Embeddings K)) = (loadTextDims lossy bs).mapError .py ∨
      (Mem.loadTextDims lossy M bs : Except Stop (Embeddings K)) = .error .memory) :=
  ⟨(Limits.loadWord2vec lossy).run M bs, (Limits.loadFasttext lossy).run M bs, (mem_loadText lossy M bs).same,
    (mem_loadTextDims lossy M bs).same⟩

/-! ### word2vec -/

omit [NumOps K] in
theorem arrayBytes_nd {e : Embeddings K} (he : BuiltEmb e) {m : Mat K} (hm : e.storage = .nd m) :
    arrayBytes e.storage = 4 * (e.storage.nRows * e.storage.nCols) := by
  have := he.storage
  rw [hm] at this ⊢
  rw [arrayBytes, numbersOf_const this.1]
  rfl

/-- word2vec files load with three times the memory of the matrix and eight bytes for every word. -/
theorem C83_word2vec [Codec K] (lossy : Bool) (bs : Bytes) (e : Embeddings K) (M : Nat)
    (h : Rd.run (loadWord2vec lossy) bs = .ok e) (hM : 3 * arrayBytes e.storage + 8 * e.storage.nRows ≤ M) :
    MRd.run (Mem.loadWord2vec lossy) M bs = .ok e := by
  obtain ⟨hb, _, _, ⟨m, hm⟩, _⟩ := loadWord2vec_built h
  rw [arrayBytes_nd hb hm] at hM
  obtain ⟨s', hp, _⟩ := peak_loadWord2vec (p := 8 * (e.storage.nRows * e.storage.nCols) + 8 * e.storage.nRows) h (by
    intro h0
    have : 1 * e.storage.nCols ≤ e.storage.nRows * e.storage.nCols := Nat.mul_le_mul_right _ (by omega)
    omega) (by unfold Mem.normSize; omega)
  exact hp.run (by omega)

/-- The matrix is allocated as the header says, and once more for the squares of its numbers. -/
theorem C83_word2vec_needs [Codec K] (lossy : Bool) (bs : Bytes) (e : Embeddings K) (M : Nat)
    (h : Rd.run (loadWord2vec lossy) bs = .ok e) (hM : M < 2 * arrayBytes e.storage + 8 * e.storage.nRows) :
    MRd.run (Mem.loadWord2vec lossy : MRd (Embeddings K)) M bs = .error .memory := by
  obtain ⟨hb, _, _, ⟨m, hm⟩, _⟩ := loadWord2vec_built h
  rw [arrayBytes_nd hb hm] at hM
  obtain ⟨s', _, hn⟩ := peak_loadWord2vec (p := 8 * e.storage.nCols + Mem.normSize e.storage.nRows e.storage.nCols) h
    (fun _ => Nat.le_add_right _ _) (Nat.le_add_left _ _)
  refine hn.run ?_
  unfold Mem.normSize
  omega

/-- Memory in proportion to the file is enough for word2vec files, unless they have a single vector.
(Missing: those, see `C83_word2vec_refuted`.) -/
theorem C83_word2vec_partial [Codec K] (lossy : Bool) (bs : Bytes) (e : Embeddings K) (M : Nat)
    (h : Rd.run (loadWord2vec lossy) bs = .ok e) (h1 : e.storage.nRows ≠ 1) (hM : 12 * bs.length ≤ M) :
    MRd.run (Mem.loadWord2vec lossy) M bs = .ok e := by
  have h2 := C80_word2vec_partial lossy bs e h h1
  obtain ⟨cols, body, rs, _, _, _, _, hn⟩ := (C60_word2vec lossy bs e).mp h
  obtain ⟨_, _, _, _, h3, rows, h4, h5, _⟩ := hn
  have hr : e.storage.nRows = rs.length := by
    rw [h4]
    exact h5.trans (List.length_map _)
  have hs : arrayBytes e.storage + 4 * e.storage.nRows ≤ dataSize e := by
    unfold dataSize
    rw [h3, hr]
    simp
  exact C83_word2vec lossy bs e M h (by omega)

/-- A file of 32 bytes loads, but needs any amount of memory. -/
theorem C83_word2vec_refuted [Codec K] (lossy : Bool) (n : Nat) (h2 : 2 ≤ n) (hn : 4 * n < 2 ^ 63) :
    ∃ (bs : Bytes) (e : Embeddings K), bs.length ≤ 32 ∧ Rd.run (loadWord2vec lossy) bs = .ok e ∧
      ∀ M, M < 8 * n → MRd.run (Mem.loadWord2vec lossy : MRd (Embeddings K)) M bs = .error .memory := by
  obtain ⟨bs, e, h3, h4, h5⟩ := C80_word2vec_refuted (K := K) lossy n h2 hn
  exact ⟨bs, e, h3, h4, fun M hM => C83_word2vec_needs lossy bs e M h4 (by rw [h5]; omega)⟩

/-! ### Text -/

/-- Text files load with twice the memory of the matrix and eight bytes for every line, and with no less. -/
theorem C83_text [NumText K] [TextIO] (lossy : Bool) (bs : Bytes) (e : Embeddings K) (M : Nat) :
    ((Mem.loadText lossy M bs : Except Stop (Embeddings K)) = .ok e ↔
      loadText lossy bs = .ok e ∧ 2 * arrayBytes e.storage + 8 * e.storage.nRows ≤ M) ∧
    ((Mem.loadTextDims lossy M bs : Except Stop (Embeddings K)) = .ok e ↔
      loadTextDims lossy bs = .ok e ∧ 2 * arrayBytes e.storage + 8 * e.storage.nRows ≤ M) := by
  rw [(mem_loadText lossy M bs).ok_iff, (mem_loadTextDims lossy M bs).ok_iff]
  constructor
  · refine and_congr_right fun h => ?_
    obtain ⟨hb, _, _, ⟨m, hm⟩, _⟩ := loadText_built h
    rw [arrayBytes_nd hb hm]
    unfold Mem.normSize
    omega
  · refine and_congr_right fun h => ?_
    obtain ⟨hb, _, _, ⟨m, hm⟩, _⟩ := loadTextDims_built h
    rw [arrayBytes_nd hb hm]
    unfold Mem.normSize
    omega

/-! ### fastText -/

omit [NumOps K] in
theorem ngrams_le {w : PyStr} {lo hi : Nat} {gs : List PyStr} (h : NgramsOf w lo hi gs) (h0 : 0 < lo) :
    gs.length ≤ w.length * (hi + 1 - lo) ∧ gs.length ≤ w.length * w.length := by
  obtain ⟨occ, rfl, h1, h2⟩ := h
  rw [List.length_map]
  have hnd : occ.Nodup := by
    refine h2.imp fun {p q} hpq he => ?_
    subst he
    omega
  rw [← List.toFinset_card_of_nodup hnd]
  constructor
  · refine (Finset.card_le_card (t := Finset.range w.length ×ˢ Finset.Icc lo hi) ?_).trans ?_
    · intro p hp
      have := (h1 p.1 p.2).mp (List.mem_toFinset.mp hp)
      simp only [Finset.mem_product, Finset.mem_range, Finset.mem_Icc]
      omega
    · rw [Finset.card_product, Finset.card_range, Nat.card_Icc]
  · refine (Finset.card_le_card (t := Finset.range w.length ×ˢ Finset.Icc 1 w.length) ?_).trans ?_
    · intro p hp
      have := (h1 p.1 p.2).mp (List.mem_toFinset.mp hp)
      simp only [Finset.mem_product, Finset.mem_range, Finset.mem_Icc]
      omega
    · rw [Finset.card_product, Finset.card_range, Nat.card_Icc]
      simp

omit [NumOps K] in
theorem ft_sub_length {v : Vocab} (hv : BuiltVocab v) {ix : FtIndexer} (hs : v.sub = some (.ft ix))
    (hn : v.words.length < 2 ^ 63) {w : PyStr} {sub : List Int} (h : v.subwordIndices (.ft ix) w = .ok sub) :
    ∃ gs, NgramsOf (wrap true w) ix.minN ix.maxN gs ∧ gs.length = sub.length := by
  obtain ⟨is, ⟨gs, h1, h2⟩, h3, _⟩ := ftSubwords_total hv hs hn (ft_no_surrogate h)
  rw [h] at h3
  cases h3
  exact ⟨gs, h1, by rw [List.length_map, h2.length_eq]⟩

/-- The sizes of what a fastText file contains -/
theorem ft_sizes [Codec K] {lossy : Bool} {bs : Bytes} (hbs : bs.length < 2 ^ 63) {e : Embeddings K}
    (h : Rd.run (loadFasttext lossy) bs = .ok e) :
    BuiltEmb e ∧ e.vocab.words.length < 2 ^ 63 ∧ (∀ w ∈ e.vocab.words, w.length ≤ bs.length) ∧
    4 * e.storage.nCols ≤ bs.length ∧ Mem.normSize e.vocab.words.length e.storage.nCols ≤ 2 * bs.length ∧
    ∀ ix, e.vocab.sub = some (.ft ix) → 0 < ix.minN ∧ ix.minN ≤ ix.maxN := by
  have hd := C80_fasttext lossy bs hbs e h
  obtain ⟨L, f, _, _, _, hf, hl⟩ := (C62_fasttext lossy bs hbs e).mp h
  rw [ftLoaded_size hl] at hd
  obtain ⟨h1, h2, h3, _, rows, norms, h4, _⟩ := hl
  rw [List.length_map, hf.shape] at hd
  have hc : e.storage.nCols = f.cols := by rw [h4]; rfl
  have hw : e.vocab.words.length = f.words.length := by rw [h1, List.length_map]
  have hb := hf.buckets.1
  have hcount := hf.count
  have e1 : (f.words.length + f.buckets) * f.cols = f.words.length * f.cols + f.buckets * f.cols := Nat.add_mul _ _ _
  have e2 : 1 * f.cols ≤ f.buckets * f.cols := Nat.mul_le_mul_right _ hb
  refine ⟨h3, by omega, ?_, by omega, ?_, ?_⟩
  · intro w hw
    rw [h1] at hw
    have : w.length ≤ charsOf (f.words.map Prod.fst) := List.single_le_sum (by simp) _ (List.mem_map_of_mem hw)
    omega
  · unfold Mem.normSize
    rw [hc, hw]
    omega
  · intro ix hix
    rw [h2] at hix
    cases hix
    exact ⟨hf.range.1, hf.range.2.1⟩

/-- fastText files load with three times their own size, and what it takes to average the rows of the n-grams of the
longest word. -/
theorem C83_fasttext [Codec K] (lossy : Bool) (bs : Bytes) (hbs : bs.length < 2 ^ 63) (e : Embeddings K) (G M : Nat)
    (h : Rd.run (loadFasttext lossy) bs = .ok e)
    (hG : ∀ ix, e.vocab.sub = some (.ft ix) → ∀ w ∈ e.vocab.words, ∀ gs, NgramsOf (wrap true w) ix.minN ix.maxN gs →
      gs.length ≤ G)
    (hM : 3 * bs.length + (8 * (G + 1) + 4 * e.storage.nCols * (G + 2)) ≤ M) :
    MRd.run (Mem.loadFasttext lossy) M bs = .ok e := by
  obtain ⟨hb, hn, _, _, hs, _⟩ := ft_sizes hbs h
  obtain ⟨ix, hix, ⟨s', c, hc, hp⟩, _⟩ := peak_loadFasttext h
  refine (hp (2 * bs.length + (8 * (G + 1) + 4 * e.storage.nCols * (G + 2))) ?_ (by omega)).run (by omega)
  intro w hw sub hsub
  obtain ⟨gs, h1, h2⟩ := ft_sub_length hb.vocab hix hn hsub
  have h3 := hG ix hix w hw gs h1
  rw [h2] at h3
  unfold Mem.meanSize
  have : 4 * (e.storage.nCols * (sub.length + 2)) ≤ 4 * e.storage.nCols * (G + 2) := by
    rw [Nat.mul_assoc]
    exact Nat.mul_le_mul_left _ (Nat.mul_le_mul_left _ (by omega))
  omega

/-- Beside the matrix, a row is copied for every n-gram of a word. -/
theorem C83_fasttext_needs [Codec K] (lossy : Bool) (bs : Bytes) (hbs : bs.length < 2 ^ 63) (e : Embeddings K) (M : Nat)
    (h : Rd.run (loadFasttext lossy) bs = .ok e) (ix : FtIndexer) (hix : e.vocab.sub = some (.ft ix)) (w : PyStr)
    (hw : w ∈ e.vocab.words) (gs : List PyStr) (hg : NgramsOf (wrap true w) ix.minN ix.maxN gs)
    (hM : M < arrayBytes e.storage + (8 * (gs.length + 1) + 4 * e.storage.nCols * (gs.length + 2))) :
    MRd.run (Mem.loadFasttext lossy : MRd (Embeddings K)) M bs = .error .memory := by
  obtain ⟨hb, hn, _⟩ := ft_sizes hbs h
  obtain ⟨_, _, _, ⟨m, hm⟩, _⟩ := loadFasttext_built h
  rw [arrayBytes_nd hb hm] at hM
  obtain ⟨ix', hix', _, hneeds, _⟩ := peak_loadFasttext h
  rw [hix] at hix'
  cases hix'
  obtain ⟨sub, hs, hneeds⟩ := hneeds w hw
  obtain ⟨gs', h1, h2⟩ := ft_sub_length hb.vocab hix hn hs
  cases C17_unique _ _ _ _ _ hg h1
  refine hneeds.run ?_
  unfold Mem.meanSize
  rw [← h2, ← Nat.mul_assoc 4 e.storage.nCols]
  exact hM

/-- Beside the matrix, the rows of the words are copied to be squared. -/
theorem C83_fasttext_norms [Codec K] (lossy : Bool) (bs : Bytes) (e : Embeddings K) (M : Nat)
    (h : Rd.run (loadFasttext lossy) bs = .ok e)
    (hM : M < arrayBytes e.storage + 4 * (e.vocab.words.length * e.storage.nCols) + 8 * e.vocab.words.length) :
    MRd.run (Mem.loadFasttext lossy : MRd (Embeddings K)) M bs = .error .memory := by
  obtain ⟨hb, _, _, ⟨m, hm⟩, _⟩ := loadFasttext_built h
  rw [arrayBytes_nd hb hm] at hM
  obtain ⟨_, _, _, _, hneeds⟩ := peak_loadFasttext h
  refine hneeds.run ?_
  unfold Mem.normSize
  omega

theorem ft_enough [Codec K] {lossy : Bool} {bs : Bytes} (hbs : bs.length < 2 ^ 63) {e : Embeddings K} {G M : Nat}
    (h : Rd.run (loadFasttext lossy) bs = .ok e)
    (hG : ∀ ix, e.vocab.sub = some (.ft ix) → ∀ w ∈ e.vocab.words, ∀ gs, NgramsOf (wrap true w) ix.minN ix.maxN gs →
      gs.length ≤ G)
    (hM : 3 * bs.length + (8 * (G + 1) + bs.length * (G + 2)) ≤ M) : MRd.run (Mem.loadFasttext lossy) M bs = .ok e := by
  refine C83_fasttext lossy bs hbs e G M h hG ?_
  have := (ft_sizes hbs h).2.2.2.1
  have := Nat.mul_le_mul_right (G + 2) this
  omega

/-- Memory quadratic in the size of the file, times the number of lengths of n-grams, is enough for fastText files. -/
theorem C83_fasttext_range [Codec K] (lossy : Bool) (bs : Bytes) (hbs : bs.length < 2 ^ 63) (e : Embeddings K) (M : Nat)
    (h : Rd.run (loadFasttext lossy) bs = .ok e) (ix : FtIndexer) (hix : e.vocab.sub = some (.ft ix))
    (hM : (ix.maxN - ix.minN + 2) * (bs.length + 5) ^ 2 ≤ M) : MRd.run (Mem.loadFasttext lossy) M bs = .ok e := by
  obtain ⟨_, _, hw, _, _, hr⟩ := ft_sizes hbs h
  obtain ⟨h0, h1⟩ := hr ix hix
  refine ft_enough (G := (bs.length + 2) * (ix.maxN + 1 - ix.minN)) hbs h ?_ ?_
  · intro ix' hix' w hww gs hg
    rw [hix] at hix'
    cases hix'
    refine (ngrams_le hg h0).1.trans (Nat.mul_le_mul_right _ ?_)
    have := hw w hww
    simp [wrap]
    omega
  · refine le_trans ?_ hM
    rw [show ix.maxN + 1 - ix.minN = ix.maxN - ix.minN + 1 by omega]
    generalize ix.maxN - ix.minN = r
    generalize bs.length = B
    nlinarith [Nat.zero_le (r * B), Nat.zero_le B, Nat.zero_le r]

/-- Memory cubic in the size of the file is enough for fastText files. -/
theorem C83_fasttext_cubic [Codec K] (lossy : Bool) (bs : Bytes) (hbs : bs.length < 2 ^ 63) (e : Embeddings K) (M : Nat)
    (h : Rd.run (loadFasttext lossy) bs = .ok e) (hM : (bs.length + 4) ^ 3 ≤ M) :
    MRd.run (Mem.loadFasttext lossy) M bs = .ok e := by
  obtain ⟨_, _, hw, _, _, hr⟩ := ft_sizes hbs h
  refine ft_enough (G := (bs.length + 2) * (bs.length + 2)) hbs h ?_ ?_
  · intro ix hix w hww gs hg
    obtain ⟨h0, h1⟩ := hr ix hix
    have : (wrap true w).length ≤ bs.length + 2 := by
      have := hw w hww
      simp [wrap]
      omega
    exact (ngrams_le hg h0).2.trans (Nat.mul_le_mul this this)
  · refine le_trans ?_ hM
    generalize bs.length = B
    nlinarith [Nat.zero_le B]

end

/-- A file with a single word of `n` letters and two rows of `n` numbers -/
def Sample.ftLong (n : Nat) : FtFile := { Sample.ftFile2 with
  dims := n, buckets := 1, minN := 1, maxN := n + 2, words := [(List.replicate n 97, 1)], cols := n,
  rows := [List.replicate n 0, List.replicate n 0], output := [] }

theorem Sample.ftLong_ok (n : Nat) (hn : n < 2 ^ 30) : (Sample.ftLong n).OK where
  ints := by
    obtain ⟨_, h2, h3, h4, h5, h6, h7, h8, h9, h10, _⟩ := Sample.ftFile2_ok.ints
    refine ⟨?_, h2, h3, h4, h5, h6, h7, h8, h9, h10, ?_⟩
    · show -2 ^ 31 ≤ (n : Int) ∧ (n : Int) < 2 ^ 31
      omega
    · intro p hp
      rw [List.mem_singleton.mp hp]
      show -2 ^ 63 ≤ (1 : Int) ∧ (1 : Int) < 2 ^ 63
      decide
  buckets := ⟨by show 0 < 1; decide, by show 1 < 2 ^ 31; decide⟩
  range := ⟨by show 0 < 1; decide, by show 1 ≤ n + 2; omega, by show n + 2 < 2 ^ 31; omega⟩
  prune := Sample.ftFile2_ok.prune
  count := by show 1 < 2 ^ 31; decide
  nul := by
    intro p hp c hc
    rw [List.mem_singleton.mp hp] at hc
    rw [(List.mem_replicate.mp hc).2]
    decide
  text := by
    intro p hp c hc
    rw [List.mem_singleton.mp hp] at hc
    rw [(List.mem_replicate.mp hc).2]
    exact .inl (by decide)
  nodup := by simp [Sample.ftLong]
  shape := rfl
  cols := by simp [Sample.ftLong]
  size := by
    show ShapeOk 2 n
    unfold ShapeOk
    rw [show max 1 2 = 2 from rfl]
    omega

theorem Sample.ftLong_length (n : Nat) (h1 : 150 ≤ n) : (Sample.ftLong n).bytes.length ≤ 10 * n := by
  have hu : (utf8 (List.replicate n (97 : Code))).length = n := by
    rw [ascii_length fun c hc => by rw [(List.mem_replicate.mp hc).2]; decide, List.length_replicate]
  have hs : ∀ (w : Nat) (i : Int), (sle w i).length = w := by simp [sle]
  have hs' : ∀ (w i : Nat), (le w i).length = w := by simp
  unfold FtFile.bytes FtFile.headerBytes FtFile.cfgBytes FtFile.dictBytes FtFile.matrixBytes ftWordBytes Sample.ftLong
  simp only [List.length_append, hs, hs', length_f32sLE, List.flatMap_cons, List.flatMap_nil, List.flatten_cons,
    List.flatten_nil, List.length_replicate, List.length_cons, List.length_nil, hu]
  omega

theorem sum_down (L : Nat) : 2 * ∑ n ∈ Finset.Icc 1 L, (L + 1 - n) = L * (L + 1) := by
  induction L with
  | zero => simp
  | succ L ih =>
    rw [Finset.sum_Icc_succ_top (by omega), Finset.sum_congr rfl (g := fun n => (L + 1 - n) + 1) (by
      intro n hn
      have := (Finset.mem_Icc.mp hn).2
      omega), Finset.sum_add_distrib]
    simp only [Finset.sum_const, Nat.card_Icc]
    rw [show L + 1 + 1 - (L + 1) = 1 by omega, show L + 1 - 1 = L by omega, smul_eq_mul]
    nlinarith

/-- Memory in proportion to the file, or to its square, is not enough: files of `10 n` bytes load, but need `2 n^3`. -/
theorem C83_fasttext_refuted {K : Type} [NumOps K] [Codec K] (lossy : Bool) (n : Nat) (h1 : 150 ≤ n) (hn : n < 2 ^ 30) :
    ∃ (bs : Bytes) (e : Embeddings K), bs.length ≤ 10 * n ∧ Rd.run (loadFasttext lossy) bs = .ok e ∧
      ∀ M, M < 2 * n ^ 3 → MRd.run (Mem.loadFasttext lossy : MRd (Embeddings K)) M bs = .error .memory := by
  have hok := Sample.ftLong_ok n hn
  obtain ⟨e, h, hl⟩ := C42_load (K := K) _ hok lossy
  have hlen := Sample.ftLong_length n h1
  refine ⟨_, e, hlen, h, fun M hM => ?_⟩
  obtain ⟨k1, k2, _, _, rows, norms, k4, _⟩ := hl
  obtain ⟨gs, g1, g2⟩ := C17_enumerates (List.replicate n 97) 1 (n + 2) true (by omega) (by omega)
  have hg := C17_count _ _ _ _ _ (by omega) g1
  have hL : (wrap true (List.replicate n 97)).length = n + 2 := by simp [wrap]
  rw [hL] at hg
  have hs := sum_down (n + 2)
  rw [← hg] at hs
  refine C83_fasttext_needs lossy _ (by omega) e M h _ k2 (List.replicate n 97) (by rw [k1]; simp [Sample.ftLong]) gs g2 ?_
  have hc : e.storage.nCols = n := by rw [k4]; rfl
  rw [hc]
  nlinarith

/-- No words, and the dimensions of a matrix that is not there -/
def Sample.ftVain : Bytes :=
  FtFile.headerBytes ++ { Sample.ftFile2 with words := [] : FtFile }.cfgBytes ++
    { Sample.ftFile2 with words := [] : FtFile }.dictBytes ++ [0, 0, 0, 0, 0, 0, 1, 0, 0, 1, 0, 0, 0, 0, 0, 0, 0]

/-- 109 bytes that are no fastText file request 4 TiB before they are rejected. -/
theorem C83_malformed_refuted {K : Type} [NumOps K] [Codec K] (lossy : Bool) :
    Sample.ftVain.length = 109 ∧
    (Rd.run (loadFasttext lossy) Sample.ftVain : Res (Embeddings K)) = .error .valueError ∧
    ∀ M, M < 2 ^ 42 → MRd.run (Mem.loadFasttext lossy : MRd (Embeddings K)) M Sample.ftVain = .error .memory := by
  have e1 : readFtHeader ⟨Sample.ftVain, 0⟩ = .ok ((), ⟨Sample.ftVain, 8⟩) := by decide +kernel
  obtain ⟨cfg, e2, c1, c2, c3⟩ : ∃ cfg, readFtCfg ⟨Sample.ftVain, 8⟩ = .ok (cfg, ⟨Sample.ftVain, 64⟩) ∧
      cfg.buckets = 2 ∧ cfg.minN = 3 ∧ cfg.maxN = 6 := by
    have h : (match readFtCfg ⟨Sample.ftVain, 8⟩ with
      | .ok p => decide (p.2.pos = 64 ∧ p.1.buckets = 2 ∧ p.1.minN = 3 ∧ p.1.maxN = 6)
      | .error _ => false) = true := by decide +kernel
    split at h
    · rename_i p hp
      obtain ⟨cfg, data, pos⟩ := p
      obtain ⟨h1, h2⟩ := of_decide_eq_true h
      cases h1
      cases (Costs.readFtCfg.full hp).1
      exact ⟨cfg, hp, h2⟩
    · cases h
  obtain ⟨v, ix, e3⟩ : ∃ v ix, readFtVocab 2 3 6 lossy ⟨Sample.ftVain, 64⟩ = .ok ((v, ix), ⟨Sample.ftVain, 92⟩) := by
    have h : (match readFtVocab 2 3 6 lossy ⟨Sample.ftVain, 64⟩ with
      | .ok p => decide (p.2.pos = 92)
      | .error _ => false) = true := by cases lossy <;> decide +kernel
    split at h
    · rename_i p hp
      obtain ⟨⟨v, ix⟩, data, pos⟩ := p
      have h1 := of_decide_eq_true h
      cases h1
      cases ((Costs.readFtVocab 2 3 6 lossy).full hp).1
      exact ⟨v, ix, hp⟩
    · cases h
  have e4 : readOne 1 ⟨Sample.ftVain, 92⟩ = .ok (0, ⟨Sample.ftVain, 93⟩) := by decide +kernel
  have e5 : readSigned [8, 8] ⟨Sample.ftVain, 93⟩ = .ok ([2 ^ 40, 1], ⟨Sample.ftVain, 109⟩) := by decide +kernel
  have e6 : fromFileInt (2 ^ 40 * 1) ⟨Sample.ftVain, 109⟩ = .ok ([], ⟨Sample.ftVain, 109⟩) := by decide +kernel
  refine ⟨by decide +kernel, ?_, fun M hM => ?_⟩
  · have : (loadFasttext lossy : Rd (Embeddings K)) ⟨Sample.ftVain, 0⟩ = .error .valueError := by
      unfold loadFasttext
      rw [rd_bind_ok e1]
      show (readFtCfg >>= _) _ = _
      rw [rd_bind_ok e2]
      show (readFtVocab cfg.buckets cfg.minN cfg.maxN lossy >>= _) _ = _
      rw [c1, c2, c3, rd_bind_ok e3]
      refine rd_bind_error ?_
      unfold readFtStorage
      rw [rd_bind_ok e4, if_neg (by simp)]
      show (readSigned [8, 8] >>= _) _ = _
      rw [rd_bind_ok e5]
      show (fromFileInt (2 ^ 40 * 1) >>= _) _ = _
      rw [rd_bind_ok e6]
      refine rd_bind_error ?_
      have : (reshapeInt (2 ^ 40) 1 ([] : List K)) = .error .valueError := by
        unfold reshapeInt
        rw [if_neg (by decide), if_neg (by decide)]
        exact reshape2_short _ _ _ _ (by show 0 ≠ _; decide)
      show Rd.lift (reshapeInt (2 ^ 40) 1 ([] : List K)) _ = _
      rw [this]
      rfl
    unfold Rd.run
    rw [this]
  · refine Needs.run (k := 2 ^ 42) ?_ hM
    refine Needs.after Limits.readFtHeader e1 (Needs.after Limits.readFtCfg e2 ?_)
    rw [c1, c2, c3]
    refine Needs.after (Limits.readFtVocab _ _ _ _) e3 (Needs.first ?_)
    refine Needs.after (Limits.readOne _) e4 ?_
    rw [if_neg (by simp)]
    refine Needs.after (Limits.readSigned _) e5 (Needs.first ?_)
    intro b hb
    unfold Mem.fromFileInt
    rw [if_pos (by decide)]
    exact Needs.fromFileF32 (by decide) b (by simpa using hb)

/-! ### The hypotheses can be met -/

section

/-- Two words with three numbers each -/
def Sample.w2vTwo : Bytes := utf8 (ascii "2 3\na ".toList) ++ f32sLE [1, 2, 3] ++ utf8 (ascii "b ".toList) ++ f32sLE [4, 5, 6]

example : ∃ e : Embeddings F32, Rd.run (@loadWord2vec F32 Sample.f32Ops _ false) Sample.w2vTwo = .ok e ∧
    MRd.run (@Mem.loadWord2vec F32 Sample.f32Ops _ false) 88 Sample.w2vTwo = .ok e ∧
    MRd.run (@Mem.loadWord2vec F32 Sample.f32Ops _ false) (12 * Sample.w2vTwo.length) Sample.w2vTwo = .ok e ∧
    MRd.run (@Mem.loadWord2vec F32 Sample.f32Ops _ false) 63 Sample.w2vTwo = .error .memory := by
  obtain ⟨e, h⟩ := Sample.ok_of_errOf (r := Rd.run (@loadWord2vec F32 Sample.f32Ops _ false) Sample.w2vTwo) (by decide +kernel)
  have hs : (match Rd.run (@loadWord2vec F32 Sample.f32Ops _ false) Sample.w2vTwo with
    | .ok e => decide (arrayBytes e.storage = 24 ∧ e.storage.nRows = 2)
    | .error _ => false) = true := by decide +kernel
  rw [h] at hs
  obtain ⟨h1, h2⟩ := of_decide_eq_true hs
  exact ⟨e, h, @C83_word2vec F32 Sample.f32Ops _ _ _ _ _ h (by rw [h1, h2]),
    @C83_word2vec_partial F32 Sample.f32Ops _ _ _ _ _ h (by rw [h2]; decide) (le_refl _),
    @C83_word2vec_needs F32 Sample.f32Ops _ _ _ _ _ h (by rw [h1, h2]; decide)⟩

example : ∃ e, @loadText F32 Sample.f32Ops Sample.f32Text Sample.textIO false (utf8 Sample.mixedText) = .ok e ∧
    @Mem.loadText F32 Sample.f32Ops Sample.f32Text Sample.textIO false
      (2 * arrayBytes e.storage + 8 * e.storage.nRows) (utf8 Sample.mixedText) = .ok e := by
  obtain ⟨e, h⟩ := Sample.ok_of_errOf
    (r := @loadText F32 Sample.f32Ops Sample.f32Text Sample.textIO false (utf8 Sample.mixedText)) (by decide +kernel)
  exact ⟨e, h, (@C83_text F32 Sample.f32Ops Sample.f32Text Sample.textIO false _ e _).1.mpr ⟨h, le_refl _⟩⟩

example : ∃ e, Rd.run (@loadFasttext F32 Sample.f32Ops _ true) Sample.ftFile2.bytes = .ok e ∧
    MRd.run (@Mem.loadFasttext F32 Sample.f32Ops _ true) ((Sample.ftFile2.bytes.length + 4) ^ 3) Sample.ftFile2.bytes = .ok e ∧
    MRd.run (@Mem.loadFasttext F32 Sample.f32Ops _ true) (5 * (Sample.ftFile2.bytes.length + 5) ^ 2) Sample.ftFile2.bytes =
      .ok e ∧
    MRd.run (@Mem.loadFasttext F32 Sample.f32Ops _ true) (3 * Sample.ftFile2.bytes.length + 280) Sample.ftFile2.bytes =
      .ok e ∧
    MRd.run (@Mem.loadFasttext F32 Sample.f32Ops _ true) 103 Sample.ftFile2.bytes = .error .memory ∧
    MRd.run (@Mem.loadFasttext F32 Sample.f32Ops _ true) 63 Sample.ftFile2.bytes = .error .memory := by
  have hbs : Sample.ftFile2.bytes.length < 2 ^ 63 := by decide +kernel
  obtain ⟨e, h, hl⟩ := @C42_load F32 Sample.f32Ops _ Sample.ftFile2 Sample.ftFile2_ok true
  obtain ⟨h1, h2, h4, _, rows, norms, h3, _, h5, _⟩ := hl
  have hc : e.storage.nCols = 2 := by rw [h3]; rfl
  have ha : arrayBytes e.storage = 32 := by
    rw [arrayBytes_nd h4 h3, hc, h3]
    show 4 * (rows.length * 2) = 32
    rw [h5]
    rfl
  refine ⟨e, h, @C83_fasttext_cubic F32 Sample.f32Ops _ _ _ hbs e _ h (le_refl _),
    @C83_fasttext_range F32 Sample.f32Ops _ _ _ hbs e _ h _ h2 (Nat.mul_le_mul_right _ (by decide)),
    @C83_fasttext F32 Sample.f32Ops _ _ _ hbs e 16 _ h ?_ (by rw [hc]),
    @C83_fasttext_needs F32 Sample.f32Ops _ _ _ hbs e _ h _ h2 [97, 98] (by rw [h1]; decide)
      [[60, 97, 98, 62], [60, 97, 98], [97, 98, 62]] ?_ (by rw [ha, hc]; decide),
    @C83_fasttext_norms F32 Sample.f32Ops _ _ _ e _ h (by rw [ha, hc, h1]; decide)⟩
  · intro ix hix w hw gs hg
    rw [h2] at hix
    cases hix
    refine (ngrams_le hg (by decide)).2.trans ?_
    rw [h1] at hw
    have : ∀ w ∈ Sample.ftFile2.words.map Prod.fst, (wrap true w).length * (wrap true w).length ≤ 16 := by decide
    exact this w hw
  · obtain ⟨gs, k1, k2⟩ := C17_enumerates [97, 98] 3 6 true (by decide) (by decide)
    have : ngrams [97, 98] 3 6 true = .ok [[60, 97, 98, 62], [60, 97, 98], [97, 98, 62]] := by decide +kernel
    rw [this] at k1
    cases k1
    exact k2

end

end FF
