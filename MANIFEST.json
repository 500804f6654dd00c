{
 "claims": [
  {
   "property": "C01",
   "status": "proved",
   "theorems": [
    "FF.C01_roundtrip",
    "FF.C01_write_succeeds",
    "FF.C01_roundtrip_eq",
    "FF.C01_empty_explicit_refuted"
   ],
   "note": "The exception for an ExplicitVocab without n-grams (excluded in the property) is proved to be a real failure in C01_empty_explicit_refuted."
  },
  {
   "property": "C02",
   "status": "partial",
   "theorems": [
    "FF.C02_vocab_partial",
    "FF.C02_storage",
    "FF.C02_norms",
    "FF.C02_metadata",
    "FF.C02_empty_explicit_refuted",
    "FF.C02_empty_explicit",
    "FF.C02_vocab_exact",
    "FF.C02_header_refused"
   ],
   "note": "Proved for simple, bucket, fastText and non-empty explicit vocabularies, both storages, norms and metadata. False for an ExplicitVocab without n-grams, which is written but cannot be read (C02_empty_explicit_refuted; C02_empty_explicit for every such vocabulary, C02_vocab_exact as an equivalence). Header.write is refused (C02_header_refused)."
  },
  {
   "property": "C03",
   "status": "partial",
   "theorems": [
    "FF.C03_vocab_partial",
    "FF.C03_storage",
    "FF.C03_norms",
    "FF.C03_metadata",
    "FF.C03_explicit_field",
    "FF.C03_explicit_refuted"
   ],
   "note": "Proved for simple, bucket and fastText vocabularies, storages, norms and metadata. False for ExplicitVocab with at least one n-gram: the length field is 8 bytes per n-gram too small (C03_explicit_field, C03_explicit_refuted)."
  },
  {
   "property": "C04",
   "status": "proved",
   "theorems": [
    "FF.C04_finds_first",
    "FF.C04_none",
    "FF.C04_terminates"
   ],
   "note": "First matching chunk, None iff no chunk matches, and termination on every byte string."
  },
  {
   "property": "C05",
   "status": "partial",
   "theorems": [
    "FF.C05_metadata",
    "FF.C05_vocab",
    "FF.C05_storage_partial",
    "FF.C05_norms_partial",
    "FF.C05_missing_partial",
    "FF.C05_explicit_refuted",
    "FF.C05_explicit_wrong"
   ],
   "note": "Metadata and vocabulary always; storage and norms whenever the vocabulary is not an ExplicitVocab with n-grams. False there because of the wrong length field: an error (C05_explicit_refuted) or even other numbers (C05_explicit_wrong)."
  },
  {
   "property": "C06",
   "status": "partial",
   "theorems": [
    "FF.C06_write",
    "FF.C06_read_partial",
    "FF.C06_reject",
    "FF.C06_exact",
    "FF.C06_empty_refuted"
   ],
   "note": "C06_exact: which headers are read and which rejected.  Round trip and rejection for every non-empty id list; a header with no ids is written but rejected on reading (C06_empty_refuted)."
  },
  {
   "property": "C07",
   "status": "proved",
   "theorems": [
    "FF.C07_write_nd",
    "FF.C07_write_norms",
    "FF.C07_write_quantized",
    "FF.C07_read_nd",
    "FF.C07_read_norms",
    "FF.C07_read_quantized"
   ],
   "note": "Writers and readers, for arbitrary prefixes and arbitrary files."
  },
  {
   "property": "C08",
   "status": "proved",
   "theorems": [
    "FF.C08_truncated",
    "FF.C08_never_different",
    "FF.C08_truncated_mmap"
   ],
   "note": "Every proper prefix either raises, or is the prefix that ends exactly before the norms chunk, which loads as the same embeddings without norms."
  },
  {
   "property": "C09",
   "status": "partial",
   "theorems": [
    "FF.C09_storage",
    "FF.C09_storage_any",
    "FF.C09_empty_ndarray_exact",
    "FF.C09_metadata",
    "FF.C09_vocab_partial",
    "FF.C09_norms_partial",
    "FF.C09_vocab_exact",
    "FF.C09_norms_exact",
    "FF.C09_vocab_refuted",
    "FF.C09_norms_refuted",
    "FF.C09_empty_storage_refuted"
   ],
   "note": "Storages with elements and metadata: every proper prefix is rejected. Vocabularies: every prefix except one ending inside the last word of a non-explicit vocabulary, which may load with that word shortened (C09_vocab_refuted). Norms: prefixes may load with fewer norms (C09_norms_refuted). Storages without elements: C09_empty_storage_refuted. Exact results: C09_storage_any, C09_empty_ndarray_exact, C09_vocab_exact (which prefixes load), C09_norms_exact (which norms they load)."
  },
  {
   "property": "C10",
   "status": "proved",
   "theorems": [
    "FF.C10_consistent"
   ],
   "note": "Every byte string, read or memory mapped."
  },
  {
   "property": "C11",
   "status": "partial",
   "theorems": [
    "FF.C11_kinds_partial",
    "FF.C11_header",
    "FF.C11_no_chunks",
    "FF.C11_unknown_id_refuted",
    "FF.C11_duplicate_refuted",
    "FF.C11_utf8_refuted",
    "FF.C11_zero_refuted",
    "FF.C11_overflow_refuted",
    "FF.C11_short_matrix_refuted"
   ],
   "note": "Every byte string returns or raises one of the listed exceptions; a wrong magic or header is a FinalfusionFormatError. Other malformed input raises other exceptions, shown by the _refuted witnesses."
  },
  {
   "property": "C12",
   "status": "partial",
   "theorems": [
    "FF.C12_mmap_agrees",
    "FF.C12_storage_mmap_agrees",
    "FF.C12_mmap_succeeds_partial",
    "FF.C12_storage_mmap_succeeds_partial",
    "FF.C12_roundtrip_mmap",
    "FF.C12_empty_refuted",
    "FF.C12_written_exact"
   ],
   "note": "When both succeed they agree, and a successful mmap implies a successful read. A successful read implies a successful mmap for non-empty matrices; for an empty matrix ending at a page boundary mmap fails (C12_empty_refuted). C12_written_exact: a written file cannot be mapped exactly when its matrix has no elements, there are no norms and its size is a multiple of 4096."
  },
  {
   "property": "C13",
   "status": "proved",
   "theorems": [
    "FF.C13_write",
    "FF.C13_determined",
    "FF.C13_read",
    "FF.C13_round_trip",
    "FF.C13_model",
    "FF.C13_digits",
    "FF.C13_value"
   ],
   "note": "Both native byte orders, all numpy byte-order flags, one- and two-dimensional arrays of every element width."
  },
  {
   "property": "C14",
   "status": "proved",
   "theorems": [
    "FF.C14_rejects",
    "FF.C14_accepts"
   ],
   "note": "Rejection exactly for repeated words; otherwise index, length and membership."
  },
  {
   "property": "C15",
   "status": "partial",
   "theorems": [
    "FF.C15_bounds_partial",
    "FF.C15_negative_refuted",
    "FF.C15_explicit_exact"
   ],
   "note": "All four vocabulary classes. Missing: an explicit index with negative values, which the constructor accepts, produces an index of a known word (C15_negative_refuted). C15_explicit_exact: exactly negative indices of n-grams of admissible length do."
  },
  {
   "property": "C16",
   "status": "proved",
   "theorems": [
    "FF.C16_getitem_idx",
    "FF.C16_keyerror",
    "FF.C16_default",
    "FF.C16_known",
    "FF.C16_unknown"
   ],
   "note": "For every vocabulary and string, including the exceptions that pass through."
  },
  {
   "property": "C17",
   "status": "proved",
   "theorems": [
    "FF.C17_enumerates",
    "FF.C17_rejects",
    "FF.C17_unique",
    "FF.C17_count",
    "FF.C17_subwords"
   ],
   "note": "Multiset, order, count and uniqueness of positions."
  },
  {
   "property": "C18",
   "status": "proved",
   "theorems": [
    "FF.C18_bulk",
    "FF.C18_wraps"
   ],
   "note": "Bulk path against per n-gram call, for every string, offset and bracket flag."
  },
  {
   "property": "C19",
   "status": "proved",
   "theorems": [
    "FF.C19_bulk",
    "FF.C19_surrogate"
   ],
   "note": "Bulk path on UTF-8 byte boundaries against per n-gram call; lone surrogates raise (C19_surrogate)."
  },
  {
   "property": "C20",
   "status": "proved",
   "theorems": [
    "FF.C20_bulk"
   ],
   "note": "Bulk path against dictionary lookups, absent n-grams skipped."
  },
  {
   "property": "C21",
   "status": "proved",
   "theorems": [
    "FF.C21_fifu",
    "FF.C21_step",
    "FF.C21_ft"
   ],
   "note": "Against a separate Nat specification of FNV-1a."
  },
  {
   "property": "C22",
   "status": "proved",
   "theorems": [
    "FF.C22_fifu_call",
    "FF.C22_ft_call",
    "FF.C22_fifu_bulk",
    "FF.C22_ft_bulk"
   ],
   "note": "Both hash indexers, single calls and the bulk path."
  },
  {
   "property": "C23",
   "status": "partial",
   "theorems": [
    "FF.C23_covers_partial",
    "FF.C23_enumerated",
    "FF.C23_accepts",
    "FF.C23_accepts_list",
    "FF.C23_covers_exact",
    "FF.C23_negative_refuted"
   ],
   "note": "Proved for an index without negative values and for the enumerated index. Negative values are accepted although they do not cover 0..upper_bound (C23_negative_refuted): the claim holds exactly without them (C23_covers_exact). C23_accepts and C23_accepts_list say exactly which arguments are accepted."
  },
  {
   "property": "C24",
   "status": "partial",
   "theorems": [
    "FF.C24_preserves_partial",
    "FF.C24_same_bucket",
    "FF.C24_range",
    "FF.C24_success",
    "FF.C24_no_ngrams",
    "FF.C24_no_ngrams_refuted"
   ],
   "note": "Proved whenever the conversion succeeds, and it succeeds whenever some known word has an n-gram and no known word contains a lone surrogate. It raises ValueError when no known word has an n-gram (C24_no_ngrams, C24_no_ngrams_refuted)."
  },
  {
   "property": "C25",
   "status": "partial",
   "theorems": [
    "FF.C25_result",
    "FF.C25_known_partial",
    "FF.C25_unknown_partial",
    "FF.C25_same_partial",
    "FF.C25_success",
    "FF.C25_no_ngrams_refuted"
   ],
   "note": "Known and unknown words have the same embeddings before and after the conversion whenever bucket_to_explicit succeeds, which it does exactly when some known word has an n-gram and numpy can allocate an array of the new shape (C25_success). Partial because the conversion raises ValueError when no known word has an n-gram (C25_no_ngrams_refuted)."
  },
  {
   "property": "C26",
   "status": "proved",
   "theorems": [
    "FF.C26_step",
    "FF.C26_history",
    "FF.C26_init",
    "FF.C26_errors"
   ],
   "note": "Every history of setter calls keeps the embeddings consistent and only legal assignments succeed. A norms value that is not a Norms raises AssertionError although the documentation says TypeError."
  },
  {
   "property": "C27",
   "status": "partial",
   "theorems": [
    "FF.C27_agree",
    "FF.C27_with_norm",
    "FF.C27_total_partial",
    "FF.C27_errors",
    "FF.C27_raises",
    "FF.C27_surrogate_refuted",
    "FF.C27_codes_refuted",
    "FF.C27_negative_refuted"
   ],
   "note": "All lookups agree (C27_agree, C27_with_norm) and which of them raise is characterised (C27_errors). Totality is partial: a lone surrogate with a fastText indexer, a quantized code out of range and a negative explicit index raise (three _refuted theorems); C27_raises says exactly when which exception is raised."
  },
  {
   "property": "C28",
   "status": "proved",
   "theorems": [
    "FF.C28_known",
    "FF.C28_unknown",
    "FF.C28_real",
    "FF.C28_indices"
   ],
   "note": "Exact over any NumOps and, over the reals, unit length and the direction of the sum of the n-gram rows. A zero sum is excluded: the code divides by zero (NaN)."
  },
  {
   "property": "C29",
   "status": "proved",
   "theorems": [
    "FF.C29_found",
    "FF.C29_default",
    "FF.C29_default_broadcast",
    "FF.C29_default_wrong",
    "FF.C29_none",
    "FF.C29_default_itself",
    "FF.C29_wrong_length",
    "FF.C29_norm_found",
    "FF.C29_norm_default",
    "FF.C29_norm_none",
    "FF.C29_norm_missing",
    "FF.C29_quantized",
    "FF.C29_quantized_strided"
   ],
   "note": "heap model of numpy arrays; found / default / broadcast / wrong length / missing word for embedding and embedding_with_norm, and QuantizedArray.embedding with out. Finding: with a projection, a strided out is overwritten and then ValueError is raised (C29_quantized_strided). A sum of one-component vectors into a longer out is modelled as ValueError."
  },
  {
   "property": "C30",
   "status": "proved",
   "theorems": [
    "FF.C30_frame",
    "FF.C30_nothing_changes",
    "FF.C30_answers",
    "FF.C30_explicit_fresh",
    "FF.C30_write",
    "FF.C30_explicit_shares_norms"
   ],
   "note": "heap model with views and aliasing: any sequence of queries and exports, with arbitrary output buffers apart from the arrays of the embeddings, changes only those buffers; later answers are those of the value model. bucket_to_explicit gives a fresh storage but shares the norms (C30_explicit_shares_norms)."
  },
  {
   "property": "C31",
   "status": "proved",
   "theorems": [
    "FF.C31_top_k",
    "FF.C31_embedding_similarity",
    "FF.C31_word_similarity",
    "FF.C31_analogy",
    "FF.C31_unique"
   ],
   "note": "For every order argpartition, heappush and nlargest may leave (Sel.Admissible, met by Sel.sorting), NdArray storage, non-empty vocabulary; covers _similarity, embedding_similarity, word_similarity and analogy. Scores are compared as floating point numbers (Score): equal scores need not be identical, and no score of a word that is not skipped may be NaN (Comparable; C68 says what happens otherwise)."
  },
  {
   "property": "C32",
   "status": "partial",
   "theorems": [
    "FF.C32_at_most",
    "FF.C32_count_partial",
    "FF.C32_raises",
    "FF.C32_refuted"
   ],
   "note": "At most k results always; min(k, candidates) results if k + known skips <= len(vocab). The full claim is false: for larger k all three methods raise ValueError (C32_raises, C32_refuted)."
  },
  {
   "property": "C33",
   "status": "proved",
   "theorems": [
    "FF.C33_excluded",
    "FF.C33_candidates",
    "FF.C33_none"
   ],
   "note": "Answers are known words outside the skip set, candidates are exactly the words outside it, None iff a query word has no embedding."
  },
  {
   "property": "C34",
   "status": "partial",
   "theorems": [
    "FF.C34_ndarray_partial",
    "FF.C34_quantized",
    "FF.C34_refuted"
   ],
   "note": "Holds for NdArray. False for QuantizedArray: every query raises AttributeError (C34_quantized, C34_refuted)."
  },
  {
   "property": "C35",
   "status": "proved",
   "theorems": [
    "FF.C35_int",
    "FF.C35_unique",
    "FF.C35_total",
    "FF.C35_list",
    "FF.C35_slice",
    "FF.C35_real"
   ],
   "note": "Against a component-wise specification; integers, lists and slices, with the IndexError cases. Shapes as the reader and the constructor document them (QWF)."
  },
  {
   "property": "C36",
   "status": "partial",
   "theorems": [
    "FF.C36_array",
    "FF.C36_full_slice",
    "FF.C36_iter_partial",
    "FF.C36_iter_norms",
    "FF.C36_iter_refuted"
   ],
   "note": "Indexing, conversion and full slices agree; iteration agrees for NdArray and for QuantizedArray without norms. With norms iteration gives unscaled vectors (C36_iter_norms, C36_iter_refuted)."
  },
  {
   "property": "C37",
   "status": "proved",
   "theorems": [
    "FF.C37_sequence",
    "FF.C37_storage",
    "FF.C37_compose"
   ],
   "note": "Against the textual rule for Python slices, independent of slice.indices; sequences (Norms, NdArray rows) and storages, composition of slices."
  },
  {
   "property": "C38",
   "status": "proved",
   "theorems": [
    "FF.C38_written",
    "FF.C38_load",
    "FF.C38_round_trip",
    "FF.C38_bit_exact"
   ],
   "note": "word2vec: writer inverted to an independent file format, loader total on that format, round trip for every storage/vocabulary; bit exact on float32"
  },
  {
   "property": "C39",
   "status": "partial",
   "theorems": [
    "FF.C39_raises_partial",
    "FF.C39_newline",
    "FF.C39_broadcast",
    "FF.C39_exact",
    "FF.C39_refuted",
    "FF.C39_empty_refuted"
   ],
   "note": "every cut raises except those leaving exactly one complete component in the last row (accepted by numpy broadcasting), the final newline, or a header cut with no rows: these are refuted with witnesses; C39_exact states which prefixes load and C39_broadcast what they load"
  },
  {
   "property": "C40",
   "status": "proved",
   "theorems": [
    "FF.C40_written",
    "FF.C40_load_dims",
    "FF.C40_load",
    "FF.C40_round_trip_dims",
    "FF.C40_round_trip",
    "FF.C40_no_words"
   ],
   "note": "both text formats, every separator of blanks/tabs/FF/VT (a line break as separator is not a separator of the format); number printer and parser are parameters assumed inverse on the exported values"
  },
  {
   "property": "C41",
   "status": "partial",
   "theorems": [
    "FF.C41_fields",
    "FF.C41_dims_partial",
    "FF.C41_text_partial",
    "FF.C41_refuted"
   ],
   "note": "every line has a unique reading; a wrong count other than one raises; a single component is broadcast (refuted)"
  },
  {
   "property": "C42",
   "status": "proved",
   "theorems": [
    "FF.C42_written",
    "FF.C42_write_succeeds",
    "FF.C42_load",
    "FF.C42_vocab",
    "FF.C42_round_trip",
    "FF.C42_same",
    "FF.C42_bucket_limit",
    "FF.C42_nul_refuted"
   ],
   "note": "Writer inverted to an independent file format; loader total on that format (whatever follows the input matrix). Over the reals with exactly representable written values the vocabulary always survives, bucket rows are unchanged and each word row is its exported vector divided by its length (C42_round_trip); with unit rows and positive norms storage and norms are identical (C42_same). Words with NUL do not survive (C42_nul_refuted), 2^31 or more buckets cannot be written (C42_bucket_limit)."
  },
  {
   "property": "C43",
   "status": "proved",
   "theorems": [
    "FF.C43_word2vec",
    "FF.C43_word2vec_rewrite",
    "FF.C43_fasttext",
    "FF.C43_text_dims",
    "FF.C43_text",
    "FF.C43_any"
   ],
   "note": "word2vec, both text formats and fastText, over the reals; for fastText the vector is the mean of the word row and its n-gram rows. C43_any covers every byte string the loaders accept."
  },
  {
   "property": "C44",
   "status": "proved",
   "theorems": [
    "FF.C44_word2vec_same",
    "FF.C44_word2vec_lossy",
    "FF.C44_fasttext_same",
    "FF.C44_fasttext_lossy",
    "FF.C44_text",
    "FF.C44_text_dims",
    "FF.C44_decode",
    "FF.C44_utf8"
   ],
   "note": "Every byte string; the word2vec header line is decoded as ASCII in both modes, so lossy loading raises UnicodeDecodeError exactly if that line is not ASCII. Text files are decoded as a whole in the model. C44_utf8 characterises the decoder of the model itself: RFC 3629 and replacement of maximal subparts."
  },
  {
   "property": "C45",
   "status": "partial",
   "theorems": [
    "FF.C45_selected_partial",
    "FF.C45_strict",
    "FF.C45_ignore_refuted",
    "FF.C45_files_partial"
   ],
   "note": "Every requested word that has an embedding gets exactly that embedding, no other word is written, without --ignore_unk an unrepresentable word aborts before the output is opened. With --ignore_unk such words are written with a zero vector instead of being skipped (C45_ignore_refuted). The order of set enumeration is an arbitrary oracle; blank lines count as the word \"\"."
  },
  {
   "property": "C46",
   "status": "partial",
   "theorems": [
    "FF.C46_skips_partial",
    "FF.C46_skips_iff",
    "FF.C46_answers_partial",
    "FF.C46_refuted"
   ],
   "note": "get_skips is characterised exactly (C46_skips_iff) and correct whenever include names c or does not name b. False otherwise: leaving out c forbids b instead of c (C46_refuted)."
  },
  {
   "property": "C47",
   "status": "partial",
   "theorems": [
    "FF.C47_accepts",
    "FF.C47_float32_partial",
    "FF.C47_float64",
    "FF.C47_refuted",
    "FF.C47_any",
    "FF.C47_fewer"
   ],
   "note": "float32 arrays are kept exactly. The dtype check is a no-op, so other dtypes are accepted (C47_accepts, C47_refuted) and a float64 Norms file reads back as halves of the values (C47_float64); for every element type, what is written and how many values come back (C47_any), fewer than there were for float16 (C47_fewer)."
  },
  {
   "property": "C48",
   "status": "partial",
   "theorems": [
    "FF.C48_other_files_partial",
    "FF.C48_refuted",
    "FF.C48_header",
    "FF.C48_tools",
    "FF.C48_in_place"
   ],
   "note": "Other files are never touched and failing loads leave everything alone (C48_other_files_partial, C48_tools). False for the output itself: write_fasttext truncates the file before its type check, Header.write likewise, and an in-place ffp-convert loses the input (C48_refuted, C48_header, C48_in_place)."
  },
  {
   "property": "C49",
   "status": "proved",
   "theorems": [
    "FF.C49_canonical",
    "FF.C49_bytes_determine"
   ],
   "note": "Byte identity of a second write, and determinacy of the observable value by the bytes."
  },
  {
   "property": "C50",
   "status": "proved",
   "theorems": [
    "FF.C50_strings",
    "FF.C50_codec",
    "FF.C50_round_trip",
    "FF.C50_surrogate"
   ],
   "note": "Against the UTF-8 encoder of the Lean core library; every string, every prefix and every continuation of the file."
  },
  {
   "property": "C51",
   "status": "proved",
   "theorems": [
    "FF.C51_eq_iff",
    "FF.C51_equivalence",
    "FF.C51_lookups"
   ],
   "note": "Equality is exactly sameness of class, words, index and indexer, an equivalence relation, and determines every lookup."
  },
  {
   "property": "C52",
   "status": "proved",
   "theorems": [
    "FF.C52_composes",
    "FF.C52_to_finalfusion",
    "FF.C52_to_finalfusion_succeeds",
    "FF.C52_word2vec",
    "FF.C52_text",
    "FF.C52_fasttext",
    "FF.C52_exports",
    "FF.C52_through_word2vec"
   ],
   "note": "ffp-convert from each input format to finalfusion, and its exports. The TOML library is assumed to parse back what it printed (metadata only). Memory-mapped files that are converted onto themselves are the subject of C75."
  },
  {
   "property": "C53",
   "status": "proved",
   "theorems": [
    "FF.C53_word2vec",
    "FF.C53_text",
    "FF.C53_text_dims",
    "FF.C53_fasttext"
   ],
   "note": "For every byte string. Finalfusion files: C10."
  },
  {
   "property": "C54",
   "status": "partial",
   "theorems": [
    "FF.C54_getitem_partial",
    "FF.C54_embedding_partial",
    "FF.C54_with_norm_partial",
    "FF.C54_row",
    "FF.C54_mapped",
    "FF.C54_refuted"
   ],
   "note": "Proved for words without a row of their own and for quantized storages. Refuted for known words of an NdArray: their row itself is returned (C54_row, C54_refuted), which is writable unless memory mapped (C54_mapped)."
  },
  {
   "property": "C55",
   "status": "partial",
   "theorems": [
    "FF.C55_similar",
    "FF.C55_analogy",
    "FF.C55_similar_files",
    "FF.C55_analogy_files",
    "FF.C55_written_embeddings",
    "FF.C55_unreadable",
    "FF.C55_stdout_partial",
    "FF.C55_line_unique",
    "FF.C55_readable_partial",
    "FF.C55_no_results",
    "FF.C55_stderr",
    "FF.C55_messages",
    "FF.C55_query_unique",
    "FF.C55_refuted"
   ],
   "note": "The order and content of the answers are proved without restriction. Reading the output back is proved for words without line feeds and non-empty results; C55_refuted shows two different results that print alike. A blank line ends ffp-analogy with ValueError. The messages about unknown words on the standard error stream are included. Tracebacks and argument parsing are not modelled."
  },
  {
   "property": "C56",
   "status": "partial",
   "theorems": [
    "FF.C56_contains",
    "FF.C56_superset",
    "FF.C56_vocab",
    "FF.C56_explicit",
    "FF.C56_shortest",
    "FF.C56_iter_partial",
    "FF.C56_iter_norms",
    "FF.C56_iter_refuted"
   ],
   "note": "Proved for vocabularies, explicit indexers, and for embeddings whose storage is not a QuantizedArray with norms. For those iteration gives the unscaled vectors (C56_iter_norms, C56_iter_refuted). Objects other than strings and iterables are one constructor of PyItem."
  },
  {
   "property": "C57",
   "status": "partial",
   "theorems": [
    "FF.C57_layout",
    "FF.C57_regular",
    "FF.C57_truncated",
    "FF.C57_magic",
    "FF.C57_labels",
    "FF.C57_pruned",
    "FF.C57_entry",
    "FF.C57_quantized",
    "FF.C57_numbers_refuted",
    "FF.C57_negative_refuted"
   ],
   "note": "Every byte string that loads is inverted to a layout (C57_layout), and every proper prefix of a file is rejected (C57_truncated). The claim that the numbers of the header are checked is refuted: loss and model numbers 0, -1 and -2 count from the end of the enumerations (C57_numbers_refuted), and a negative number of rows is accepted (C57_negative_refuted). C62 describes exactly which files load."
  },
  {
   "property": "C58",
   "status": "proved",
   "theorems": [
    "FF.C58_word2vec",
    "FF.C58_text",
    "FF.C58_fasttext",
    "FF.C58_mean",
    "FF.C58_unknown",
    "FF.C58_sums",
    "FF.C58_word_similarity",
    "FF.C58_word2vec_similarity",
    "FF.C58_float32"
   ],
   "note": "Standard model of floating point arithmetic: overflow and underflow are excluded by the relative error of every operation. Zero vectors are excluded (their rows are NaN), and no similarity may be NaN. Sample.rounded shows that rounding to 24 bits with unbounded exponent meets the hypotheses."
  },
  {
   "property": "C59",
   "status": "proved",
   "theorems": [
    "FF.C59_lines",
    "FF.C59_text",
    "FF.C59_dims",
    "FF.C59_line_ends"
   ],
   "note": "Equivalences for every byte string, strict and lossy; load_text_dims looks at the file only as far as the announced rows and the piece of the file they end in. The conversion of strings to numbers is a parameter."
  },
  {
   "property": "C60",
   "status": "proved",
   "theorems": [
    "FF.C60_word2vec",
    "FF.C60_whitespace",
    "FF.C60_ascii_whitespace",
    "FF.C60_digit",
    "FF.C60_int",
    "FF.C60_decimal"
   ],
   "note": "Equivalence for every byte string, strict and lossy. C60_whitespace, C60_ascii_whitespace, C60_int and C60_decimal say which characters and integer literals this (and C59) means."
  },
  {
   "property": "C61",
   "status": "proved",
   "theorems": [
    "FF.C61_load",
    "FF.C61_unambiguous",
    "FF.C61_write",
    "FF.C61_written"
   ],
   "note": "Equivalences with a byte-level description of the format that shares no definition with the readers and writers but the UTF-8 encoder and the shape conditions of arrays; files of up to 2^63-5 bytes."
  },
  {
   "property": "C62",
   "status": "proved",
   "theorems": [
    "FF.C62_fasttext",
    "FF.C62_loads",
    "FF.C62_unique"
   ],
   "note": "Equivalence for every byte string of less than 2^63 bytes, strict and lossy; the embeddings are determined by the file."
  },
  {
   "property": "C63",
   "status": "proved",
   "theorems": [
    "FF.C63_find",
    "FF.C63_find_none",
    "FF.C63_vocab",
    "FF.C63_simple",
    "FF.C63_bucket",
    "FF.C63_fasttext",
    "FF.C63_explicit",
    "FF.C63_storage",
    "FF.C63_ndarray",
    "FF.C63_quantized",
    "FF.C63_norms",
    "FF.C63_metadata",
    "FF.C63_missing",
    "FF.C63_agrees"
   ],
   "note": "Equivalences for every byte string (of up to 2^63-5 bytes where arrays are read), sharing the description of chunks with C61."
  },
  {
   "property": "C64",
   "status": "proved",
   "theorems": [
    "FF.C64_exportable",
    "FF.C64_word2vec",
    "FF.C64_word2vec_raises",
    "FF.C64_fasttext",
    "FF.C64_fasttext_vectors",
    "FF.C64_fasttext_raises",
    "FF.C64_fasttext_quantized",
    "FF.C64_text",
    "FF.C64_text_raises"
   ],
   "note": "Equivalences for every embeddings; for the text formats under the assumption that numbers print as visible ASCII characters. The remains of a failed export are exact for word2vec and text; for fastText the reason is exact."
  },
  {
   "property": "C65",
   "status": "partial",
   "theorems": [
    "FF.C65_yields",
    "FF.C65_lines",
    "FF.C65_all",
    "FF.C65_text",
    "FF.C65_dims_utf8",
    "FF.C65_dims",
    "FF.C65_one_piece",
    "FF.C65_load",
    "FF.C65_tools",
    "FF.C65_refuted"
   ],
   "note": "Exact for every cutting of the file. Iteration, load_text, the word list of ffp-select and, on UTF-8 files or in lossy mode, load_text_dims do not depend on the pieces; on other files load_text_dims may or may not raise UnicodeDecodeError (C65_refuted), but never returns anything else (C65_dims)."
  },
  {
   "property": "C66",
   "status": "partial",
   "theorems": [
    "FF.C66_arith",
    "FF.C66_determined",
    "FF.C66_normalized_partial",
    "FF.C66_word2vec_partial",
    "FF.C66_text_partial",
    "FF.C66_fasttext_partial",
    "FF.C66_score_partial",
    "FF.C66_word_similarity_partial",
    "FF.C66_overflow",
    "FF.C66_underflow",
    "FF.C66_cases",
    "FF.C66_range",
    "FF.C66_left_to_right",
    "FF.C66_all_refuted",
    "FF.C66_short_refuted"
   ],
   "note": "Proved for finite vectors of up to 2^20 components whose computed norm is finite and at least 2^-60, so in particular for lengths between 2^-59 and 2^62 (C66_range). False for others: if the norm is infinite the row is zero, if it is zero the row is infinite or NaN, and the exports are NaN; this happens to every vector with a component of 2^64 or of length 2^65 and to every vector with components of at most 2^-75, for every order of summation (C66_overflow, C66_underflow, C66_all_refuted). C66_cases says that there are no other cases but vectors shorter than 2^-59, for which the norm can be off by 5 percent (C66_short_refuted). C66_determined: correct rounding, as it is specified here, has one result up to the sign of zero."
  },
  {
   "property": "C67",
   "status": "proved",
   "theorems": [
    "FF.C67_text",
    "FF.C67_shortest",
    "FF.C67_read",
    "FF.C67_read_exact",
    "FF.C67_parse_str",
    "FF.C67_survives",
    "FF.C67_nan",
    "FF.C67_exception",
    "FF.C67_printable",
    "FF.C67_round_trip"
   ],
   "note": "The exact set of numbers that survive, by a certificate that no decimal number with up to eight digits is closer than 2^-53 (relatively) to a midpoint between two float32 numbers except for 15 midpoints, which are checked one by one. Text with underscores, whitespace and digits of other scripts is modelled in the reader; the theorem about reading is for plain ASCII decimal numbers. C67_read_exact says that it determines the number. NaN payloads are lost by str."
  },
  {
   "property": "C68",
   "status": "partial",
   "theorems": [
    "FF.C68_compare",
    "FF.C68_displaced",
    "FF.C68_all_answered",
    "FF.C68_zero_vector",
    "FF.C68_zero_answers",
    "FF.C68_zero_query",
    "FF.C68_numbers_partial",
    "FF.C68_refuted"
   ],
   "note": "Proved for vectors whose computed norms are finite and at least 2^-60 (C68_numbers_partial). False with zero vectors: their rows are NaN (C68_zero_vector), and NaN scores are preferred to all numbers, in every arithmetic, for every partition and heap (C68_displaced, C68_all_answered, C68_zero_answers, C68_zero_query, C68_refuted)."
  },
  {
   "property": "C69",
   "status": "partial",
   "theorems": [
    "FF.C69_sums_partial",
    "FF.C69_range_partial",
    "FF.C69_unknown_partial",
    "FF.C69_unknown_zero",
    "FF.C69_unknown_similarity_partial",
    "FF.C69_fasttext_rows",
    "FF.C69_analogy_partial",
    "FF.C69_analogy_zero",
    "FF.C69_refuted"
   ],
   "note": "Proved for sums whose computed norm is finite and at least 2^-60; this is so for at most 2^20 rows of at most 2^20 components of at most 2^31 (analogies: 2^50) whose computed sum has a length of at least 2^-59 (C69_range_partial); similarities for words with norms in that range. False if the sum is zero: the vector is NaN and so are all answers, in every arithmetic (C69_unknown_zero, C69_analogy_zero, C69_refuted)."
  },
  {
   "property": "C70",
   "status": "partial",
   "theorems": [
    "FF.C70_load",
    "FF.C70_round_trip_partial",
    "FF.C70_words_partial",
    "FF.C70_cancel_refuted"
   ],
   "note": "C70_load: for n-gram counts below 2^20 and components up to 2^100. C70_round_trip_partial and C70_words_partial: the difference is 4(n+4) 2^-24 times the vector plus the mean of the n-gram rows, so a few units in the last place only if the n-grams are not much larger than the word. C70_cancel_refuted: the code loses the vector of a word whose n-grams are 2^24 times larger, it is loaded as NaN."
  },
  {
   "property": "C71",
   "status": "partial",
   "theorems": [
    "FF.C71_fresh",
    "FF.C71_out_partial",
    "FF.C71_unique",
    "FF.C71_key",
    "FF.C71_codes",
    "FF.C71_shape",
    "FF.C71_readonly",
    "FF.C71_strided_refuted",
    "FF.C71_getitem",
    "FF.C71_one_column",
    "FF.C71_columns",
    "FF.C71_one_norm",
    "FF.C71_uneven_norms",
    "FF.C71_few_norms",
    "FF.C71_contiguous"
   ],
   "note": "C71_out_partial: with a projection, out has to be contiguous. C71_strided_refuted: otherwise the code overwrites out with vectors that are not projected and raises ValueError. C71_one_column, C71_columns, C71_one_norm, C71_few_norms, C71_uneven_norms: what storages do whose codes, quantizers and norms do not fit together."
  },
  {
   "property": "C72",
   "status": "proved",
   "theorems": [
    "FF.C72_row",
    "FF.C72_lookup",
    "FF.C72_machines_plain",
    "FF.C72_machines_projected"
   ],
   "note": "Numbers are finite and at most 2^30 in absolute value, vectors have at most 2^20 components."
  },
  {
   "property": "C73",
   "status": "proved",
   "theorems": [
    "FF.C73_chain",
    "FF.C73_runs",
    "FF.C73_changes"
   ],
   "note": "Vectors have lengths between 2^-58 and 2^61 and at most 2^20 components. C73_changes: a witness that conversions are not exact."
  },
  {
   "property": "C74",
   "status": "partial",
   "theorems": [
    "FF.C74_convert",
    "FF.C74_bucket_to_explicit",
    "FF.C74_similar_stdin",
    "FF.C74_similar_file_partial",
    "FF.C74_analogy_stdin",
    "FF.C74_analogy_file_partial",
    "FF.C74_select_stdin",
    "FF.C74_select_file_partial",
    "FF.C74_convert_exit",
    "FF.C74_bucket_exit",
    "FF.C74_similar_exit",
    "FF.C74_analogy_exit",
    "FF.C74_select_exit",
    "FF.C74_words",
    "FF.C74_similar_refuted",
    "FF.C74_analogy_refuted",
    "FF.C74_select_refuted",
    "FF.C74_include_refuted",
    "FF.C74_include",
    "FF.C74_options",
    "FF.C74_choices",
    "FF.C74_negative"
   ],
   "note": "False for ffp-similar, ffp-analogy and ffp-select: a query or word file that does not directly follow the required words is rejected (C74_similar_refuted, C74_analogy_refuted, C74_select_refuted), and -i swallows the word after its arguments (C74_include_refuted). Everything else is proved. argparse is modelled as in CPython 3.11."
  },
  {
   "property": "C75",
   "status": "partial",
   "theorems": [
    "FF.C75_tools_partial",
    "FF.C75_unmapped",
    "FF.C75_overwritten",
    "FF.C75_lost",
    "FF.C75_refuted"
   ],
   "note": "True of all tools but ffp-convert, and of ffp-convert if the output is not the mapped input (C75_tools_partial). False for ffp-convert --mmap X X: opening the output truncates the mapped file before anything of the matrix has been read. Whatever the operating system then does, files that differ only in vectors are the same afterwards (C75_overwritten), so at most one of them survives (C75_lost, C75_refuted), while all survive without --mmap (C75_unmapped)."
  },
  {
   "property": "C76",
   "status": "proved",
   "theorems": [
    "FF.C76_convert",
    "FF.C76_bucket_to_explicit",
    "FF.C76_select",
    "FF.C76_similar",
    "FF.C76_analogy",
    "FF.C76_files",
    "FF.C76_known"
   ],
   "note": "All lists of words, not only those of the grammar of C74. What the options mean is C74."
  },
  {
   "property": "C77",
   "status": "proved",
   "theorems": [
    "FF.C77_reads",
    "FF.C77_only",
    "FF.C77_parse",
    "FF.C77_error",
    "FF.C77_space",
    "FF.C77_text",
    "FF.C77_dims",
    "FF.C77_text_numbers",
    "FF.C77_dims_numbers"
   ],
   "note": "For float32 as numpy reads it: float() of the text, then rounding to binary32. Python float literals as in the language reference plus whitespace and the words nan, inf, infinity. C77_parse is an equivalence, C77_text_numbers and C77_dims_numbers describe the loaders including the numbers. C77_space makes the whitespace of the specifications of C40, C59, C60 explicit."
  },
  {
   "property": "C78",
   "status": "proved",
   "theorems": [
    "FF.C78_new",
    "FF.C78_int",
    "FF.C78_array",
    "FF.C78_slice",
    "FF.C78_error",
    "FF.C78_none",
    "FF.C78_asarray",
    "FF.C78_agree",
    "FF.C78_none_differs",
    "FF.C78_norms_int",
    "FF.C78_norms_array",
    "FF.C78_norms_slice",
    "FF.C78_norms_error"
   ],
   "note": "Keys are integers, integer arrays or nested lists, one-dimensional boolean arrays, slices and None; tuples and boolean matrices are not modelled."
  },
  {
   "property": "C79",
   "status": "partial",
   "theorems": [
    "FF.C79_boundaries_partial",
    "FF.C79_boundaries_overrun",
    "FF.C79_fasttext_partial",
    "FF.C79_fasttext_any_partial",
    "FF.C79_fasttext_div",
    "FF.C79_fasttext_overrun",
    "FF.C79_fasttext_call",
    "FF.C79_finalfusion",
    "FF.C79_finalfusion_call",
    "FF.C79_explicit",
    "FF.C79_ngrams",
    "FF.C79_uninitialised",
    "FF.C79_faults"
   ],
   "note": "False for fastText words of 4 GiB or more in UTF-8: the unsigned int that counts bytes wraps, and the array of boundaries is overrun (C79_boundaries_overrun, C79_fasttext_overrun). Everything else is proved, for 64-bit platforms and strings of less than 2^62 characters. Running out of memory is not modelled."
  },
  {
   "property": "C80",
   "status": "partial",
   "theorems": [
    "FF.C80_finalfusion",
    "FF.C80_fasttext",
    "FF.C80_word2vec_partial",
    "FF.C80_word2vec_refuted",
    "FF.C80_text",
    "FF.C80_text_partial",
    "FF.C80_dims_partial",
    "FF.C80_dims_refuted",
    "FF.C80_text_refuted"
   ],
   "note": "Holds for finalfusion and fastText, for word2vec files with more than one vector (factor 4) and for text files whose lines have all components (factor 4). False for a vector that consists of one number, which numpy repeats (C80_word2vec_refuted, C80_dims_refuted, C80_text_refuted); for text the square of the size is a bound (C80_text). Sizes of arrays are counted in bytes, of strings in characters."
  },
  {
   "property": "C81",
   "status": "partial",
   "theorems": [
    "FF.C81_same",
    "FF.C81_only",
    "FF.C81_fasttext",
    "FF.C81_text",
    "FF.C81_word2vec",
    "FF.C81_vocab",
    "FF.C81_finalfusion",
    "FF.C81_refuted",
    "FF.C81_twice_refuted",
    "FF.C81_norms_refuted",
    "FF.C81_remainder_refuted",
    "FF.C81_exponent_refuted",
    "FF.C81_crash_refuted",
    "FF.C81_lookup_crash_refuted"
   ],
   "note": "Files that load give the same with and without assertions (C81_same), and outcomes differ only where an assertion fails or its condition divides by zero (C81_only). That what is loaded is still consistent is false: C81_refuted, C81_twice_refuted, C81_norms_refuted. For text and word2vec files C81_text and C81_word2vec say what the assertions reject, for vocabularies and finalfusion files C81_vocab and C81_finalfusion (unless quantized, C81_remainder_refuted). C81_fasttext is the same for fastText files of less than 512 MiB. Without assertions a file with 0 buckets leads to an integer division by zero in C code (C81_crash_refuted, C81_lookup_crash_refuted)."
  },
  {
   "property": "C82",
   "status": "partial",
   "theorems": [
    "FF.C82_same",
    "FF.C82_load_partial",
    "FF.C82_with",
    "FF.C82_written",
    "FF.C82_needs",
    "FF.C82_storage",
    "FF.C82_metadata",
    "FF.C82_vocab_partial",
    "FF.C82_norms_refuted",
    "FF.C82_malformed_refuted",
    "FF.C82_vocab_refuted"
   ],
   "note": "Written files (C82_written), and files whose norms chunk announces the right number (C82_load_partial), load with their own size and 24 bytes; the same holds for storages, metadata and vocabularies that are not the last thing in a file. False in general: the norms chunk may announce any number (C82_norms_refuted, C82_needs), a header any number of chunks (C82_malformed_refuted), and the last word any length (C82_vocab_refuted). Counted are the buffers of file.read and numpy.fromfile as allocated by CPython 3.11 and numpy 1.2x, not the strings and lists made from them."
  },
  {
   "property": "C83",
   "status": "partial",
   "theorems": [
    "FF.C83_same",
    "FF.C83_word2vec",
    "FF.C83_word2vec_needs",
    "FF.C83_word2vec_partial",
    "FF.C83_word2vec_refuted",
    "FF.C83_text",
    "FF.C83_fasttext",
    "FF.C83_fasttext_needs",
    "FF.C83_fasttext_norms",
    "FF.C83_fasttext_range",
    "FF.C83_fasttext_cubic",
    "FF.C83_fasttext_refuted",
    "FF.C83_malformed_refuted"
   ],
   "note": "word2vec files with other than one vector load with twelve times their size (C83_word2vec_partial), all of them with three times the matrix and eight bytes per word; text files load with exactly twice the matrix and eight bytes per line (C83_text); fastText files with three times their size and the rows of the n-grams of the longest word (C83_fasttext), which is cubic at most (C83_fasttext_cubic). False in general: 32 bytes of word2vec need any amount (C83_word2vec_refuted), fastText files of 10 n bytes may need 2 n^3 (C83_fasttext_refuted), and malformed ones 4 TiB before they are rejected (C83_malformed_refuted). Counted are the arrays of numpy.fromfile, zeros, fancy indexing, mean and norm, and the buffers of file.read, not strings, lists and the temporaries of parsing numbers."
  },
  {
   "property": "C84",
   "status": "partial",
   "theorems": [
    "FF.C84_ngrams_partial",
    "FF.C84_single",
    "FF.C84_known_partial",
    "FF.C84_unknown_partial",
    "FF.C84_export_partial",
    "FF.C84_output_refuted",
    "FF.C84_eos_refuted",
    "FF.C84_single_refuted",
    "FF.C84_nosubwords_refuted"
   ],
   "note": "For n-grams of two or more characters: the same indices with the same multiplicities (C84_ngrams_partial), the vectors of words other than </s> (C84_known_partial) and the directions of other vectors (C84_unknown_partial; the reported norm is that of the sum, not of the mean), and the vectors fastText computes from the input matrix of a written file (C84_export_partial). False for </s> (C84_eos_refuted), single characters (C84_single_refuted; C84_single says what differs), models without n-grams (C84_nosubwords_refuted), and no written file is a complete model (C84_output_refuted)."
  },
  {
   "property": "C85",
   "status": "partial",
   "theorems": [
    "FF.C85_reader",
    "FF.C85_export",
    "FF.C85_load",
    "FF.C85_words_partial",
    "FF.C85_words_refuted"
   ],
   "note": "Exports are read by distance.c as they are meant (C85_export).  Loading what word2vec.c writes gives its vectors, with the words without the whitespace at their ends, or AssertionError if these are not distinct (C85_load), hence the same words if there is no such whitespace (C85_words_partial).  word2vec.c only splits at blanks, tabs and newlines, so its words can end with other whitespace: these are changed or the file does not load (C85_words_refuted)."
  },
  {
   "property": "C86",
   "status": "partial",
   "theorems": [
    "FF.C86_history_partial",
    "FF.C86_untouched",
    "FF.C86_created",
    "FF.C86_indexer",
    "FF.C86_converted",
    "FF.C86_loaded",
    "FF.C86_words_refuted",
    "FF.C86_bound_refuted",
    "FF.C86_copy_refuted"
   ],
   "note": "Holds as long as the caller changes no list or dict that the vocabulary refers to (C86_history_partial; C86_created, C86_indexer, C86_converted and C86_loaded say which these are).  The constructors keep the list that they are given, and to_explicit hands on the list of words, so that a change to it makes words and indices disagree (C86_words_refuted, C86_bound_refuted) and reaches from a converted vocabulary to the original (C86_copy_refuted)."
  },
  {
   "property": "C87",
   "status": "partial",
   "theorems": [
    "FF.C87_embeddings",
    "FF.C87_conditions",
    "FF.C87_conditions_refuted",
    "FF.C87_getitem",
    "FF.C87_metadata",
    "FF.C87_norms_lengths_partial",
    "FF.C87_norms_type_refuted",
    "FF.C87_explicit",
    "FF.C87_read_binary",
    "FF.C87_chunk_header",
    "FF.C87_array_header",
    "FF.C87_array_header_short",
    "FF.C87_loaders",
    "FF.C87_write_header",
    "FF.C87_ndarray",
    "FF.C87_norms_refuted",
    "FF.C87_pq",
    "FF.C87_reconstruct",
    "FF.C87_reconstruct_ok",
    "FF.C87_ngrams_partial",
    "FF.C87_ngrams_refuted",
    "FF.C87_subword_indices",
    "FF.C87_vocabs"
   ],
   "note": "Proved for the constructor of embeddings (C87_embeddings), lookups (C87_getitem), the setter of metadata, bucket_to_explicit, the reading of binary data and headers, the functions that load one part of a file, NdArray, PQ, subword_indices and the vocabulary constructors.  The documentation is wrong, or the code, for the number of norms in the constructor of embeddings (C87_conditions, C87_conditions_refuted), norms of another type (C87_norms_type_refuted; C87_norms_lengths_partial is the rest), Norms.__new__ (C87_norms_refuted), negative lengths of n-grams (C87_ngrams_refuted; C87_ngrams_partial is the rest), unknown numbers in headers (C87_chunk_header, C87_array_header), an output without dimensions (C87_reconstruct), and a header that is written alone (C87_write_header)."
  },
  {
   "property": "C88",
   "status": "partial",
   "theorems": [
    "FF.C88_dims_partial",
    "FF.C88_text_partial",
    "FF.C88_text_refuted",
    "FF.C88_text_first_refuted",
    "FF.C88_dims_refuted",
    "FF.C88_word2vec_partial",
    "FF.C88_fasttext"
   ],
   "note": "Proved for fastText (C88_fasttext): exactly the prefixes that miss nothing but a part of the trailing copy of the storage are loaded, as the complete file is.  The code violates it for the others.  word2vec: all words and all vectors but the last are right, the last may repeat its first component (C88_word2vec_partial, C39_refuted).  Text with dimensions: the same, and the last number may be cut (C88_dims_partial, C88_dims_refuted).  Text: words may be missing (C88_text_partial, C88_text_refuted) and, if the first line is cut, components (C88_text_first_refuted)."
  },
  {
   "property": "C89",
   "status": "partial",
   "theorems": [
    "FF.C89_finalfusion",
    "FF.C89_finalfusion_exact",
    "FF.C89_parts",
    "FF.C89_word2vec",
    "FF.C89_word2vec_exact",
    "FF.C89_text",
    "FF.C89_fasttext_cubic",
    "FF.C89_fasttext_partial",
    "FF.C89_fasttext_needs",
    "FF.C89_fasttext_refuted"
   ],
   "note": "Proved for finalfusion (C89_finalfusion; exactly two steps per word and stored n-gram, C89_finalfusion_exact), its parts (C89_parts), word2vec (C89_word2vec, C89_word2vec_exact) and text (C89_text).  The code violates it for fastText: a word of 3 m letters in a model with n-grams of all lengths takes at least m^3 steps (C89_fasttext_refuted, C89_fasttext_needs); the bound is cubic in general (C89_fasttext_cubic) and in proportion to the file for a fixed n-gram range (C89_fasttext_partial)."
  },
  {
   "property": "C90",
   "status": "partial",
   "theorems": [
    "FF.C90_lines",
    "FF.C90_undecodable",
    "FF.C90_yields",
    "FF.C90_yields_total",
    "FF.C90_found_partial",
    "FF.C90_ascii",
    "FF.C90_utf8",
    "FF.C90_select_partial",
    "FF.C90_stdout_partial",
    "FF.C90_stdout_stops",
    "FF.C90_found_refuted",
    "FF.C90_stdout_refuted",
    "FF.C90_select_refuted"
   ],
   "note": "The code violates it: files are opened in the encoding of the locale.  A query in UTF-8 is unknown in a locale with ISO 8859-1 and raises UnicodeDecodeError in one with ASCII (C90_found_refuted); neighbours that the encoding does not have cannot be printed (C90_stdout_refuted); a word list selects other words, without a warning if there are subwords (C90_select_refuted).  Proved: the same for every two files that spell the same text in their encodings (C90_lines, C90_found_partial, C90_select_partial), what iterating over any file yields in any encoding, lossily or not (C90_yields, C90_yields_total), for files in ASCII in all locales (C90_ascii), what is printed and where printing stops (C90_stdout_partial, C90_stdout_stops), and that undecodable files raise UnicodeDecodeError after the lines before (C90_undecodable)."
  },
  {
   "property": "C91",
   "status": "partial",
   "theorems": [
    "FF.C91_word2vec_partial",
    "FF.C91_text_partial",
    "FF.C91_fasttext_partial",
    "FF.C91_duplicate_refuted",
    "FF.C91_empty_refuted",
    "FF.C91_index_refuted",
    "FF.C91_rows_refuted",
    "FF.C91_overflow_refuted"
   ],
   "note": "Proved: the complete list of exceptions of each loader (C91_word2vec_partial, C91_text_partial, C91_fasttext_partial; text files if float() raises nothing but ValueError, which C77 proves for float32).  The code violates it: a word that occurs twice raises AssertionError in all formats (C91_duplicate_refuted), an empty file StopIteration in load_text_dims (C91_empty_refuted), and in load_fasttext an unknown loss or model IndexError (C91_index_refuted), a matrix with fewer rows than words IndexError (C91_rows_refuted), and a huge one OverflowError (C91_overflow_refuted)."
  },
  {
   "property": "C92",
   "status": "proved",
   "theorems": [
    "FF.C92_loaded",
    "FF.C92_explicit",
    "FF.C92_lookup",
    "FF.C92_write",
    "FF.C92_convert",
    "FF.C92_select",
    "FF.C92_queries"
   ],
   "note": "For every file: the words and n-grams (C92_loaded, C92_explicit), lookups (C92_lookup), writers of all formats (C92_write), ffp-convert and ffp-bucket-to-explicit (C92_convert, except onto the file that is mapped, see C52), ffp-select (C92_select), ffp-similar and ffp-analogy (C92_queries).  Assumed of the toml package: it does not raise UnicodeEncodeError and writes text without surrogates (TomlSafe); of numbers: their text is ASCII."
  },
  {
   "property": "C93",
   "status": "proved",
   "theorems": [
    "FF.C93_lookup",
    "FF.C93_similarity",
    "FF.C93_word_similarity",
    "FF.C93_analogy",
    "FF.C93_unique",
    "FF.C93_fewer",
    "FF.C93_negative_refuted"
   ],
   "note": "Lookups (C93_lookup), the three queries (C93_similarity, C93_word_similarity, C93_analogy), identical answers without ties (C93_unique), fewer words (C93_fewer).  That n-gram indices are not negative is necessary (C93_negative_refuted); the constructor accepts negative ones, see C15.  The queries of an empty vocabulary are left out: numpy releases differ."
  },
  {
   "property": "C94",
   "status": "proved",
   "theorems": [
    "FF.C94_no_norms",
    "FF.C94_nearest",
    "FF.C94_ranking",
    "FF.C94_word_similarity",
    "FF.C94_analogy",
    "FF.C94_files",
    "FF.C94_norms_refuted"
   ],
   "note": "Nearest neighbours among the selected words by the vectors of the source (C94_nearest), restriction of the complete ranking (C94_ranking, C94_word_similarity, C94_analogy), from file to file (C94_files).  Norms are lost (C94_no_norms, C94_norms_refuted).  Selections of unrepresentable words with --ignore_unk are not covered, see C45."
  },
  {
   "property": "C95",
   "status": "proved",
   "theorems": [
    "FF.C95_matrix",
    "FF.C95_norms",
    "FF.C95_codes",
    "FF.C95_centroids",
    "FF.C95_quantized_norms",
    "FF.C95_projection",
    "FF.C95_byte",
    "FF.C95_others",
    "FF.C95_unnoticed_refuted"
   ],
   "note": "Matrices (C95_matrix, C95_byte), norms (C95_norms), codes (C95_codes), centroids (C95_centroids); lookups of other words (C95_others).  Damage is not noticed: C95_unnoticed_refuted.  Norms and projection of a quantized matrix: C95_quantized_norms, C95_projection."
  },
  {
   "property": "C96",
   "status": "proved",
   "theorems": [
    "FF.C96_more",
    "FF.C96_skip",
    "FF.C96_word",
    "FF.C96_analogy",
    "FF.C96_symmetric"
   ],
   "note": "C96_more, C96_skip, C96_word, C96_analogy and C96_symmetric (for symmetric dot products).  Numbers of answers beyond the vocabulary raise, see C32."
  },
  {
   "property": "C97",
   "status": "proved",
   "theorems": [
    "FF.C97_finalfusion",
    "FF.C97_finalfusion_norms",
    "FF.C97_finalfusion_two",
    "FF.C97_word2vec",
    "FF.C97_fasttext",
    "FF.C97_text",
    "FF.C97_text_dims"
   ],
   "note": "C97_finalfusion, C97_finalfusion_norms, C97_finalfusion_two, C97_word2vec, C97_fasttext, C97_text and C97_text_dims.  The files have to be smaller than 2^63 bytes."
  },
  {
   "property": "C98",
   "status": "proved",
   "theorems": [
    "FF.C98_same",
    "FF.C98_same_exports",
    "FF.C98_saved",
    "FF.C98_convert",
    "FF.C98_explicit_lookup",
    "FF.C98_explicit",
    "FF.C98_explicit_quantized",
    "FF.C98_explicit_files"
   ],
   "note": "C98_same and C98_same_exports for embeddings with the same parts, C98_saved and C98_convert for files; C98_explicit_lookup, C98_explicit, C98_explicit_quantized and C98_explicit_files for the conversion, where it succeeds (C25_success).  Mapped files must not have an empty matrix (C12), and lists have fewer than 2^63 items."
  },
  {
   "property": "C99",
   "status": "proved",
   "theorems": [
    "FF.C99_word2vec",
    "FF.C99_text",
    "FF.C99_fasttext",
    "FF.C99_word_similarity",
    "FF.C99_analogy"
   ],
   "note": "C99_word2vec, C99_text and C99_fasttext for the factors, C99_word_similarity and C99_analogy for the cosines; exact arithmetic (C58 bounds the error of word_similarity in rounded arithmetic)."
  },
  {
   "property": "C100",
   "status": "proved",
   "theorems": [
    "FF.C100_word2vec",
    "FF.C100_text",
    "FF.C100_fasttext",
    "FF.C100_loaded"
   ],
   "note": "C100_word2vec, C100_text and C100_fasttext; C100_loaded shows that the loaders give embeddings they apply to; exact arithmetic."
  },
  {
   "property": "C101",
   "status": "proved",
   "theorems": [
    "FF.C101_analogy",
    "FF.C101_float32"
   ],
   "note": "C101_analogy for loaded embeddings with explicit error; C101_float32 gives numbers. No overflow or underflow, no NaN."
  },
  {
   "property": "C102",
   "status": "proved",
   "theorems": [
    "FF.C102_analogy",
    "FF.C102_word2vec",
    "FF.C102_text",
    "FF.C102_fasttext"
   ],
   "note": "C102_analogy for rows that are normalised vectors, C102_word2vec, C102_text and C102_fasttext for loaded files; for all operations that are those of binary32 up to the order of summation (Binary32)."
  },
  {
   "property": "C103",
   "status": "proved",
   "theorems": [
    "FF.C103_word",
    "FF.C103_lookup",
    "FF.C103_sample_built"
   ],
   "note": "C103_word (loading) and C103_lookup (vectors)."
  },
  {
   "property": "C104",
   "status": "proved",
   "theorems": [
    "FF.C104_unread",
    "FF.C104_byte",
    "FF.C104_parts_refuted"
   ],
   "note": "C104_unread and C104_byte; C104_parts_refuted is the file on which load_finalfusion and load_storage disagree."
  },
  {
   "property": "C105",
   "status": "proved",
   "theorems": [
    "FF.C105_word2vec",
    "FF.C105_others"
   ],
   "note": "C105_word2vec (loading) and C105_others (lookups)."
  },
  {
   "property": "C106",
   "status": "proved",
   "theorems": [
    "FF.C106_fasttext",
    "FF.C106_word_row",
    "FF.C106_one_word_refuted"
   ],
   "note": "C106_fasttext (loading and lookups), C106_word_row (rows of words); C106_one_word_refuted shows in float32 that one bit of the row of a bucket changes the vectors of several words."
  },
  {
   "property": "C107",
   "status": "proved",
   "theorems": [
    "FF.C107_fasttext",
    "FF.C107_vector_refuted"
   ],
   "note": "C107_fasttext has all three cases; C107_vector_refuted shows in float32 that the vector of the damaged word changes. A zero byte ends the word early and moves everything behind it; nothing is claimed about that."
  },
  {
   "property": "C108",
   "status": "proved",
   "theorems": [
    "FF.C108_word2vec",
    "FF.C108_lookup"
   ],
   "note": "C108_word2vec (loading, an equivalence) and C108_lookup (lookups). A space ends the word early and moves everything behind it; nothing is claimed about that."
  },
  {
   "property": "C109",
   "status": "proved",
   "theorems": [
    "FF.C109_range",
    "FF.C109_words",
    "FF.C109_sample_built",
    "FF.C109_unknown_refuted"
   ],
   "note": "C109_range (loading) and C109_words (lookups of known words); C109_unknown_refuted shows that unknown words cannot be included."
  },
  {
   "property": "C110",
   "status": "proved",
   "theorems": [
    "FF.C110_buckets",
    "FF.C110_optimized_refuted"
   ],
   "note": "C110_buckets. The check is an assertion; without assertions (python -O) the damage is not noticed (C110_optimized_refuted)."
  },
  {
   "property": "C111",
   "status": "proved",
   "theorems": [
    "FF.C111_magic",
    "FF.C111_metadata",
    "FF.C111_vocab",
    "FF.C111_storage",
    "FF.C111_norms",
    "FF.C111_vocab_refuted"
   ],
   "note": "C111_magic, C111_metadata, C111_vocab, C111_storage, C111_norms. C111_vocab_refuted shows that the restriction on identifiers is needed."
  },
  {
   "property": "C112",
   "status": "proved",
   "theorems": [
    "FF.C112_rows",
    "FF.C112_types",
    "FF.C112_norms"
   ],
   "note": "C112_rows, C112_types, C112_norms. Which exception is raised is not part of the statement: fewer rows leave bytes that are read as the next chunk. The number of rows is compared by an assertion."
  },
  {
   "property": "C113",
   "status": "proved",
   "theorems": [
    "FF.C113_ngram",
    "FF.C113_ordered",
    "FF.C113_call",
    "FF.C113_words"
   ],
   "note": "C113_ngram (loading), C113_call with C113_ordered (indices of n-grams), C113_words (words of the vocabulary)."
  },
  {
   "property": "C114",
   "status": "proved",
   "theorems": [
    "FF.C114_index",
    "FF.C114_single",
    "FF.C114_call"
   ],
   "note": "C114_index (loading), C114_single (an index that only one n-gram has), C114_call (indices of n-grams)."
  }
 ]
}