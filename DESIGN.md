# Formal model of finalfusion-python

`/verif/lean` holds a Lean 4 model of the code in `/repo` (finalfusion-python, pinned commit) and
proofs of the properties listed in `properties.jsonl`.  `MANIFEST.json` maps each property to
theorems.  `seeded/LOG.jsonl` records wrong programs against which the theorems were tried.

## Layout

| module | content |
| --- | --- |
| `Verif/Model/*` | the model: one definition per Python/Cython function, with file and line citations |
| `Verif/Spec/*`  | small independent specifications used in theorem statements, and sample objects |
| `Verif/Lemmas/*` | helper lemmas |
| `Verif/Props/Cxx.lean` | property theorems, each with examples that meet its hypotheses |
| `Verif/Conformance.lean` | known outputs of the real code (hash values) evaluated in the model |
| `Verif/Conformance/*` | the data files of the project and what its test suite expects of them, evaluated in the model |

| model file | source | content |
| --- | --- | --- |
| Base, Io | io.py | bytes, `struct`, exceptions, open files, chunk headers, `find_chunk`, `Header`, `_pad_float32` |
| Utf8, PyText | CPython | UTF-8 encode, strict and replacing decode; `strip`, `split`, `int`, `re.split`, text lines |
| Endian | io.py, storage | native byte order and byte swapping when reading and writing arrays |
| Hash, Indexers | subword/*.pyx | FNV-1a, n-gram extraction, the three indexers in machine arithmetic |
| Compiled | subword/*.pyx, hash_64a.c | the n-gram code again as C for a 64-bit platform: fixed-width counters, raw array accesses, faults |
| Vocab | vocab/*.py | the four vocabularies, construction, lookup, serialisation, `to_explicit`, equality |
| Storage | storage/*.py, norms.py | `NdArray`, `QuantizedArray`, `PQ`, `Norms`: chunks, memory mapping, indexing, slicing, iteration |
| Embeddings, Setters, Lookup | embeddings.py | construction checks, `write`, `load_finalfusion`, property setters, lookups |
| Similarity | embeddings.py | `_similarity`, `word_similarity`, `embedding_similarity`, `analogy` |
| Word2Vec, Text, FastText | compat/*.py | the foreign formats, loaders and writers |
| Scripts | scripts/*.py, norms.py | file system, `ffp-convert`, `ffp-bucket-to-explicit`, `ffp-select`, `ffp-similar`, `ffp-analogy`, `Norms.__new__` |
| Args | scripts/*.py, CPython | `argparse`, the command lines of the five tools |
| Container | vocab, subword, embeddings.py | `__len__`, `__contains__`, `__iter__`, `__getitem__` |
| Optimized | all readers | the readers again without assertions, as under `python -O` |
| Memory | readers of finalfusion files | the readers again with a budget for the buffers of `file.read` and `np.fromfile` |
| MemoryCompat | compat/*.py, _util.py | the loaders of the other formats with a budget for their arrays |
| Steps | all readers | the readers again with a budget for the rounds of the loops in Python and Cython; operations of numpy and CPython count as no step |
| Locale | scripts/similar.py:33-44, scripts/analogy.py:42-61, scripts/select.py:43-61 | the tools with the encoding of the locale for query files, word lists and the standard output |
| TextIO | CPython | text files read in pieces: incremental decoding, lines |
| Float32, FloatText | numpy, CPython | IEEE 754 binary32 on bit patterns; `str` of float32, `float` and rounding to float32 |
| Quantized, NdArray | storage/*.py, norms.py | `embedding` and `__getitem__` for keys of any shape, `NdArray.__new__` |
| Heap | embeddings.py, storage, compat | the lookups, queries, conversion and exports again, with arrays as views of buffers that can alias and be changed in place |
| Arguments | embeddings.py, vocab/subword.py, subword/*.pyx | constructors and n-gram functions with arguments that are `None` or of any other type |
| Objects | vocab/*.py, subword/explicit_indexer.pyx | constructors, conversion and loading of vocabularies again, with lists and dicts as objects that can be shared and changed |

## What is modelled

Every function of `src/finalfusion` that does more than return an attribute, except:

* `_write_ft_storage_simple` (compat/fasttext.py:301-313), which no code calls with embeddings that
  `write_fasttext` accepts;
* the texts of help, usage and exception messages, and tracebacks; `argparse` is modelled as in
  CPython 3.11 with the features
  the five parsers use (`Model/Args.lean`), the environment variables it consults for messages are not;
* `__repr__` methods and `Embeddings.origin`;
* abstract methods (`Chunk`, `Storage`, `Vocab`), of which the implementations are modelled;
* `toml`, and numpy, CPython and Cython themselves beyond the operations below.

## Modelling decisions

* **Bytes and files.** A file is a `List UInt8`; an open file for reading is the bytes plus a
  position (seek may pass the end, reads past the end return fewer bytes, as in CPython).  A file
  being written is the bytes written so far; when a writer raises, the bytes already written remain
  visible.  A file system is a function from paths to contents.
* **Exceptions as values.** `PyErr` enumerates the exception classes; readers are
  `StateT RFile (Except PyErr)`, writers `ExceptT PyErr (StateM Bytes)`.  `assert` is enabled.
* **struct.** `"<IQ"`-style formats are lists of field widths; `pack` raises `struct.error` if a
  value does not fit.
* **Strings.** A Python `str` is a list of code points below 0x110000 (surrogates included).
* **Dictionaries.** Insertion ordered association lists with replace-on-assign.
* **Integers.** Python ints are `Nat`/`Int`; Cython `uint64_t`/`uint32_t` arithmetic is modular.
  `file.seek` raises ValueError beyond 2^63, offsets that a file system refuses earlier are not modelled.
* **float32.** Where only storage and transport matter, a float is its bit pattern (`UInt32`) and
  nothing is assumed about arithmetic.  Where arithmetic matters, the model is polymorphic in the
  scalar operations (`NumOps`), and algebraic theorems instantiate it with the real numbers (exact
  arithmetic).  C58 covers rounding: the scalars stand for real numbers, every operation has a
  relative error of at most `u`, and sums are evaluated in any order (`Spec/Round`).  This is IEEE
  arithmetic without overflow, underflow, infinities and NaN.  C66 uses IEEE 754 binary32 itself: the
  operations are functions on bit patterns (`Model/Float32`), with subnormal numbers, infinities and NaN,
  that are proved to be correctly rounded; sums and dot products may be evaluated in any order, with or
  without fused operations (`Dot` in `Spec/Float32`), but in binary32: accumulation in double precision is
  not covered.  Signs and payloads of NaNs are not modelled.  `dot` of a row with a vector is one operation, so gemv and
  gemm are assumed to round alike.
* **Similarity scores** are compared as Python and numpy do (`Score`): comparisons with NaN are false, `-0`
  and `0` are equal, and numpy sorts NaNs to the end.  What `heapq.nlargest` does with NaNs is left open.
* **numpy.** Row-major matrices as lists; `fromfile`, `reshape`, integer/list/slice indexing
  (negative wrap-around), `row[:] = array` broadcasting, `dot`, `sum(0)`, `mean(0)`.  Broadcasting of
  quantizer, norm or code arrays of length one is modelled only in `Model/Quantized` (C71); elsewhere the hypothesis
  `QWF` fixes the shapes that the constructor documents.  `add.reduce` into an output of another length is a `ValueError`.
  Shapes of 2^63 bytes or more are a `ValueError` wherever arrays are made (`fromfile`, `reshape`, `zeros`, `memmap`), zero
  dimensions being left out of the product as numpy does, and counts of 2^63 or more an `OverflowError` (numpy 2 raises an
  `OverflowError` also for mapped dimensions of 2^63, which is not distinguished); running out of memory is not modelled, except for C82 and C83 (buffers and arrays requested while loading).  Running time is not modelled, except for C89 (rounds of loops while loading).
  Memory mapping is modelled on little-endian machines (`NotImplementedError` otherwise).
* **Compiled code.** `Model/Indexers` has the loops of the Cython code over natural numbers,
  `Model/Compiled` the C code that
  Cython makes of them on a 64-bit platform: out of bounds accesses, uninitialised memory, signed overflow and division by zero
  are faults, loops count in variables of the declared types.  C79 relates the two.  The translation by Cython is read off its
  documentation and known output; it has not been run.
* **Choices left open by libraries** are oracles: `argpartition` and the order of equal elements and
  NaNs in a heap (`Sel`, any admissible choice), the enumeration order of sets.
* **Heap model.** Float arrays are views (buffer and list of positions) of buffers that may be
  read-only.  Basic indexing gives views, other operations fresh arrays, in-place operations with
  overlapping operands behave as if the operands were copied first (a numpy guarantee).  Quantized
  codes, words and indexers are values there; `Model/Objects` has the lists and dicts of vocabularies as objects, and C86 relates it to the value model.  The value model and the heap model are related by
  refinement theorems (`Lemmas/HeapLookup`, `HeapOut`, `HeapExport`, `HeapB2E`, `HeapCalls`).  `Model/Quantized` has quantized
  lookups with keys and outputs of any number of dimensions; array keys are C-contiguous, outputs float32.  `Model/NdArray` indexes matrices and norms with the same keys.
* **Text files** are read in pieces, cut anywhere (`TextIO`, an oracle for buffer sizes and what the
  operating system returns), which are decoded one after the other as CPython's incremental decoder and
  newline decoder do; lines are handed out as soon as they are complete, and an undecodable piece raises
  when it is reached (`Model/TextIO`, C65).  Newlines are those of Linux.  Query and word list files
  are decoded as UTF-8, except in C90 (`Model/Locale`: UTF-8 or any encoding with one byte per character, also for the standard output).  `int()` and `float()` accept the decimal digits of all scripts
  (Unicode 14.0); the length limit of recent Python versions is not modelled.
* **Norms in exports** are float32.
* **Memory mapping** reads the matrix or the codes when loading, which is the same as reading later
  as long as the file does not
  change.  The only tool that opens its output while it still needs the mapping is `ffp-convert`; if the output is the mapped
  file, everything that happens from then on is an oracle (`Remap`) that does not see the mapped numbers.  Files are identified
  by their paths: links to the same file, and changes of files by other processes, are not modelled.
* **Parameters of the model** (trusted, not modelled): the `toml` codec (`dumps`, `loads`, with
  `loads (dumps m) = m` as an explicit hypothesis where it is needed, and for C92 that its output has no surrogates, which it
  escapes), decimal printing and parsing
  of floats in the theorems about arbitrary number types (explicit inverse hypothesis).  For float32 they are
  modelled (`Model/FloatText`): `str` by Dragon4 with the shortest unique digits, reading by `float` (binary64)
  and rounding to binary32, and C67 says for which numbers the hypothesis holds.

## Trusted base

Lean's kernel; the axioms listed below; the correspondence between the cited Python lines and the
model definitions, which was established by reading and tested: `Conformance/Files.lean` runs the model, with binary32
arithmetic and float texts, on the files of `/repo/tests/data` and checks what `/repo/tests` expects (shapes, norms,
agreement of the formats, lossy decoding, all conversions, neighbour and analogy orders, quantized vectors, explicit
vocabularies, the command line tools).  `#guard` evaluates these checks outside the kernel; no theorem depends on
them.  No axioms, `sorry`, `native_decide` or `bv_decide` are used.  `decide +kernel` evaluates
closed decidable statements in the kernel; it is used for examples, refutations, particular numbers (such as the
largest binary32 number) and, in `Lemmas/FloatGap` and `Lemmas/FloatDigits`, for certificates over
complete finite tables (every pair of exponents, every pattern next to a close midpoint).
For C84 alone, `Spec/FastTextRef` is trusted to say what fastText 0.9.2 computes; its sources were not at hand, and it was
written from knowledge of them.  For C85 alone, so is `Spec/Word2VecRef`, about word2vec.c and distance.c.

## Findings

Behaviour that contradicts a documented or intended property, each with a theorem:

1. `ExplicitVocab.write_chunk` announces a chunk that is 8 bytes per n-gram too short; readers that
   skip the chunk land inside it (C03, C05).  Usually this ends in an error (C05_explicit_refuted), but if an n-gram
   contains the bytes of a chunk, `load_storage` returns other numbers than the file holds (C05_explicit_wrong).
2. `ExplicitIndexer` with an `ngram_index` but no n-grams raises `ValueError` (`max()` of nothing), so
   an `ExplicitVocab` without n-grams can be written but not read, and `to_explicit` and
   `bucket_to_explicit` raise when no known word has an n-gram (C01, C02, C24, C25).
3. The check that indices cover 0 to the maximum accepts negative values, which then index the rows
   of words (C15, C23, C27).
4. `Norms.__new__` has an operator precedence error: its dtype check is a no-op; float64 norms are
   accepted and their file reads back as different numbers, float16 norms as half as many (C47).
5. Strings and norms are read with `read`/`fromfile` without a length check: truncated vocabularies and
   norms can load (C09); quantized codes beyond the centroids are not rejected and raise at lookup
   (C27); one damaged byte is enough (C95_unnoticed_refuted).
6. A header without chunk ids is written but rejected (C06).
7. Malformed input raises `ValueError`, `AssertionError`, `ZeroDivisionError`, `UnicodeDecodeError`
   or `OverflowError` besides `FinalfusionFormatError` (C11).
8. An empty matrix at a page boundary cannot be memory mapped (C12).
9. Similarity queries raise `ValueError` if k plus the number of known skipped words exceeds the
   vocabulary (C32), and `AttributeError` for quantized storages (C34).
10. `QuantizedArray.__iter__` ignores the norms (C36), and so does iterating over embeddings with such
    a storage, other than item access (C56).
11. word2vec and text loaders broadcast a single component to a whole row, so some truncated files
    load (C39, C41); `write_text` of an empty vocabulary cannot be loaded (C40).
12. `write_fasttext` cannot express words with NUL and 2^31 buckets (C42) and truncates the output
    file before its type check; `Header.write` likewise; `ffp-convert` in place then loses the input
    (C48).
13. A lone surrogate makes `FastTextIndexer` raise `UnicodeEncodeError` while other indexers answer
    (C19, C27).
14. The word2vec header is decoded as ASCII even in lossy mode (C44).
15. `ffp-select --ignore_unk` writes zero vectors for unknown words; a blank line is the word ""
    (C45).
16. `ffp-analogy --include`: leaving out `c` forbids `b` instead of `c` (C46); a blank line ends the
    program with `ValueError`, while `ffp-similar` skips it (C55).
17. The norms setter raises `AssertionError` instead of the documented `TypeError` (C26).
18. Lookup of a known word in an `NdArray` returns the row itself: assigning to the result changes the
    embeddings (C54); `bucket_to_explicit` shares the norms with its source (C30).
19. `QuantizedArray.embedding(out=..)` with a projection and a strided buffer overwrites the buffer and
    then raises (C29).
20. Zero vectors become NaN when normalised (C28, C43 exclude them).
21. The fastText reader looks loss and model up with `losses[n - 1]`, so the numbers 0, -1 and -2 are
    accepted and count from the end; sizes are read as signed numbers and a negative number of rows
    is not rejected (C57).
22. `write_fasttext` accepts a fastText vocabulary with a quantized matrix, writes all but the last parts of
    the file and then raises `AttributeError`, since a `QuantizedArray` has no `dtype`
    (C64_fasttext_quantized).  No exporter removes the incomplete file it leaves behind when it raises,
    and the header of that file announces all words (C64_word2vec_raises, C64_text_raises).
23. Whether `load_text_dims` accepts a file that is not UTF-8 depends on buffer sizes: malformed bytes after
    the announced rows go unnoticed unless they are in the piece of the file that is decoded together with
    the last row (C65_refuted); an incomplete last character goes unnoticed always.  `load_text` refuses
    all such files.  `ffp-similar` and `ffp-analogy` may answer some queries before they fail (C55, C65).
24. `_normalize_matrix` (\_util.py:9-12) squares in float32.  A vector with a component of 2^64 (1.8e19) or
    more gets an infinite norm and a zero row; a vector with components up to 2^-75 (2.6e-23) a zero
    norm and a row of infinities and NaN; both are exported as NaN (C66_overflow, C66_underflow).
25. The text readers assign strings to a float32 array (text.py:149), which rounds twice, to binary64 and to
    binary32.  One float32 number and its negative do not survive `write_text` and `load_text` for this reason:
    7.038531e-26 (0x15AE43FD) is read as its successor (C67_exception).  All others that are not NaN do
    (C67_survives).
26. A vector of zeros in a word2vec, text or fastText file becomes a row of NaNs (\_util.py:9-12), and its
    similarity to everything is NaN.  `argpartition` (embeddings.py:612) sorts NaNs behind all numbers, so these
    words are always selected as nearest neighbours: of `N` of them, at least `min N (k + 1) - 1` answers of
    `word_similarity` and `min N k` of `embedding_similarity` are NaN instead of true neighbours
    (C68_zero_answers).
27. Vectors of n-grams that cancel out are divided by a zero norm (embeddings.py:639-640, 521): the unknown word gets a
    vector of NaNs without an error, and so does an analogy whose `c + (b - a)` is zero (C69_refuted).
28. `write_fasttext` subtracts the n-gram rows from a multiple of the word's vector in float32 (fasttext.py:288-296) and
    the reader adds them again (fasttext.py:212-218).  If the n-gram rows are 2^24 times larger than the vector, nothing is
    left of it: the word is loaded with a row of NaNs, without an error (C70_cancel_refuted).
29. `QuantizedArray.__init__` (quantized.py:184-202) does not check that codes, quantizers and norms fit together.  One
    column of codes is silently used for all quantizers (C71_one_column) and one norm for all rows of a slice
    (C71_one_norm), while an integer key raises `IndexError` after `out` has been overwritten (C71_few_norms).
30. `ffp-similar`, `ffp-analogy` and `ffp-select` reject command lines with an option between the required words and the
    optional file: `ffp-similar EMB -k 5 QUERIES` and `ffp-select IN OUT -i WORDS` end with a usage error (C74_similar_refuted,
    C74_analogy_refuted, C74_select_refuted), since `argparse` gives a positional with `nargs='?'` (similar.py:24-29) its
    default as soon as an option follows.  `ffp-analogy -i a EMB` is rejected, since `nargs="+"` (analogy.py:20-28) takes `EMB`
    for a part of the query (C74_include_refuted).  This is CPython 3.11; newer versions accept more orders.
31. `ffp-convert -f finalfusion --mmap X X` destroys `X`: the output is opened, and thereby truncated, before anything has been
    read from the mapping (convert.py:29-30, embeddings.py:427).  Depending on sizes and buffers the process dies of a bus
    error or the file gets vectors made of its own header (C75_lost, C75_refuted).  Without `--mmap` the file survives
    (C75_unmapped).  `ffp-select` and `ffp-bucket-to-explicit` copy what they need first.
32. A fastText indexer overruns an array for words of 4 GiB or more: `find_utf8_boundaries` counts bytes in an `unsigned int`
    (hash_indexers.pyx:293, 300), which wraps, so the loop does not end before it has written past `offsets`
    (C79_boundaries_overrun, C79_fasttext_overrun).
33. The word2vec and text readers fill a row by assignment (word2vec.py:47-52, text.py:143-149), and numpy repeats a single
    number along the row.  So 32 bytes load as a matrix of any size that memory allows (C80_word2vec_refuted,
    C80_dims_refuted), and `load_text` may return a matrix whose size is the square of that of the file (C80_text,
    C80_text_refuted).
34. What the readers return is checked by `assert` statements only (vocab.py:176-179, embeddings.py:643-663,
    quantized.py:42-57).  With `python -O` malformed files load: a word without a row, a word that occurs twice with only
    the last vector to be found, and words without a norm (C81_refuted, C81_twice_refuted, C81_norms_refuted).  A file with 0
    buckets crashes the interpreter: `load_fasttext`, or the first lookup of an unknown word after `load_finalfusion`,
    divides by zero in C code compiled with `cdivision` (C81_crash_refuted, C81_lookup_crash_refuted).
35. Buffers are allocated for what a file announces, before it is read.  A file of 108 bytes whose norms chunk announces
    2^60 norms needs 4 EiB of memory, although it loads if they can be had (norms.py:61, C82_norms_refuted).  Twelve bytes are
    enough to request 16 GiB (io.py:131, C82_malformed_refuted), and `load_vocab` accepts a last word that is cut off after
    requesting up to 4 GiB for it (vocab.py:132-133, C82_vocab_refuted).
36. `_precompute_word_vecs` copies a row of the matrix for every n-gram of a word, of which there are quadratically many if the
    file allows n-grams of any length: fastText files of 10 n bytes need 2 n^3 bytes (fasttext.py:213-218,
    C83_fasttext_refuted); for 1 MB this is 2 PB.  109 bytes are enough to request 4 TiB (fasttext.py:196,
    C83_malformed_refuted), and 32 bytes of word2vec or text with dimensions request any amount (word2vec.py:45, text.py:145,
    C83_word2vec_refuted, C80_dims_refuted with C83_text).
37. fastText and this package differ about fastText models.  fastText computes no n-grams for `</s>`, which every trained model
    contains; `_precompute_word_vecs` does (fasttext.py:213-218), so its vector is another one (C84_eos_refuted).  fastText leaves out
    the single characters `<` and `>` (C84_single, C84_single_refuted).  Models trained without n-grams cannot be loaded, as
    the indexer wants buckets (C84_nosubwords_refuted).  `write_fasttext` writes the output matrix without the flag and the sizes that
    fastText reads before it (fasttext.py:112), so fastText cannot load any written file (C84_output_refuted).
38. `load_word2vec` strips all whitespace from the words (word2vec.py:48), where only the newline before a word is not part of
    it.  word2vec.c separates words at blanks, tabs and newlines only, so that `a` and `a` with a no-break space are two words
    of its files: these do not load (AssertionError), and the word U+3000 becomes the empty word (C85_words_refuted).
39. Vocabularies keep the list that they are given, and hand it out as `words` (simple_vocab.py:40-44, subword.py:181, 208, 264, 296, 344, 357).  If the
    caller adds to it, `len` and `words` disagree and iteration yields words that are not contained (C86_words_refuted); with
    subwords, the indices of unknown words move past `upper_bound`, as they are offset by `len(self.words)` (subword.py:118,
    C86_bound_refuted).  `to_explicit` shares the list between the two vocabularies (C86_copy_refuted).  Only the n-grams of an
    explicit indexer carry a warning about this.
40. Exceptions are not those of the documentation (C87).  `Embeddings.__init__` asks for `len(norms) >= storage.shape[0]`
    (embeddings.py:93), which fails for every vocabulary with n-gram rows; the code checks the opposite (C87_conditions).  Setting
    `norms` to another object raises AssertionError, not TypeError (embeddings.py:337, C87_norms_type_refuted); `Norms.__new__`
    raises TypeError, not AssertionError, and only for other dimensions (norms.py:38, C87_norms_refuted).  `ngrams` with a negative
    bound raises OverflowError, not AssertionError (C87_ngrams_refuted).  `_read_chunk_header` and `_read_array_header` raise
    ValueError for unknown numbers, which is not documented (C87_chunk_header, C87_array_header).  `Chunk.write` of a header raises TypeError, as documented,
    but only after the file has been emptied (io.py:47-50, C87_write_header).  `PQ.reconstruct` with an `out` without dimensions
    raises IndexError (quantized.py:147-148, C87_reconstruct).
41. Exports that were cut short are loaded without complaint (C88).  `load_text` does not know how many words there should be: the
    beginning of a file is loaded as the first words, with the last number of the last one possibly cut (`0.1234` as `0.1`), and, if the first line
    is cut, with vectors of fewer components (text.py:83-87, C88_text_refuted, C88_text_first_refuted).  With `load_text_dims` all words
    have to be there, by the check of the norms (text.py:151-153, embeddings.py:662), but a last line with one number is broadcast
    over the vector by numpy (text.py:149, C88_dims_refuted), as it is in word2vec files (C39_refuted).
42. Loading a fastText model can take a number of steps that is cubic in the size of its file (C89).  Every n-gram of every word is
    hashed byte by byte (hash_indexers.pyx:258-271, fasttext.py:212-218), and the file says which lengths n-grams have: a file of 30 m bytes
    with a single word of 3 m letters takes m^3 steps (C89_fasttext_refuted).  With m = 10000, a file of 300 kB takes 10^12 steps.
43. The tools open query files and word lists without an encoding and print in the encoding of the locale (similar.py:34, 44,
    analogy.py:47, 61, select.py:44), while embeddings are always UTF-8.  In a locale with ISO 8859-1 a word list in UTF-8 is decoded
    without an error: `ffp-similar` does not find the words, `ffp-select` ends or, with subwords, silently writes embeddings for
    other words than those listed, and neighbours outside ISO 8859-1 raise `UnicodeEncodeError` (C90_found_refuted,
    C90_select_refuted, C90_stdout_refuted).
44. The loaders of other formats raise exceptions that have nothing to do with files (C91).  A word that occurs twice raises
    `AssertionError` in all of them, or is not noticed with `python -O` (vocab.py, `_validate_items_and_create_index`, C91_duplicate_refuted, C81).
    An empty file raises `StopIteration` in `load_text_dims` (text.py:44, C91_empty_refuted).  In `load_fasttext` an unknown
    number of a loss or a model raises `IndexError` (fasttext.py:131-133, C91_index_refuted), as does a matrix with fewer rows than
    words (C91_rows_refuted); a matrix whose size does not fit a machine number raises `OverflowError` (C91_overflow_refuted).
45. `ffp-select` does not select norms (select.py:60-61): for every word of a selection `embedding_with_norm` raises `TypeError`
    although the source has its norm, and what is exported from a selection are unit vectors (C94_no_norms, C94_norms_refuted).
46. `load_finalfusion` does not check the announced lengths of chunks and the list of chunks in the header, while the loaders of
    single parts skip chunks by their lengths: on a file with a wrong length one succeeds and the others fail (C104).
47. The kind of a vocabulary rests on its identifier alone: there is a file with one word that, with the identifier 3 in the
    place of 1, loads without an error as embeddings with another word and buckets (C111_vocab_refuted).

## Axioms

`#print axioms` was run for all 735 theorems named in MANIFEST.json. Nothing but the three
standard axioms occurs.

* no axioms (3): C02_header_refused, C48_header, C87_write_header.
* `propext` (29): C01_empty_explicit_refuted, C02_empty_explicit_refuted, C05_explicit_refuted,
  C05_explicit_wrong, C09_vocab_refuted, C09_norms_refuted, C09_empty_storage_refuted,
  C11_kinds_partial, C11_unknown_id_refuted, C11_duplicate_refuted, C11_utf8_refuted,
  C11_zero_refuted, C11_overflow_refuted, C11_short_matrix_refuted, C12_empty_refuted, C26_errors,
  C30_write, C36_iter_partial, C47_fewer, C54_mapped, C55_no_results, C66_left_to_right,
  C71_getitem, C74_words, C81_remainder_refuted, C81_exponent_refuted, C87_norms_type_refuted,
  C87_norms_refuted, C87_pq.
* `Quot.sound`, `propext` (93): C03_storage, C03_norms, C03_metadata, C04_finds_first, C04_none,
  C04_terminates, C06_write, C06_read_partial, C07_write_nd, C07_write_norms, C07_write_quantized,
  C07_read_nd, C07_read_quantized, C11_no_chunks, C12_mmap_agrees, C12_storage_mmap_agrees,
  C12_mmap_succeeds_partial, C12_storage_mmap_succeeds_partial, C13_write, C13_determined, C13_read,
  C13_round_trip, C13_model, C15_negative_refuted, C16_getitem_idx, C16_keyerror, C16_default,
  C17_rejects, C18_wraps, C19_surrogate, C21_step, C23_negative_refuted, C24_no_ngrams_refuted,
  C25_no_ngrams_refuted, C29_default, C29_default_broadcast, C29_default_wrong, C29_none,
  C29_default_itself, C29_norm_default, C29_norm_none, C29_norm_missing, C33_none, C36_iter_refuted,
  C42_nul_refuted, C44_word2vec_same, C44_word2vec_lossy, C44_fasttext_same, C44_fasttext_lossy,
  C47_accepts, C48_other_files_partial, C48_refuted, C55_similar, C55_stdout_partial,
  C55_line_unique, C55_readable_partial, C55_stderr, C56_iter_refuted, C57_negative_refuted,
  C59_lines, C60_digit, C71_contiguous, C78_new, C78_none, C79_boundaries_overrun, C79_faults,
  C81_twice_refuted, C81_norms_refuted, C81_crash_refuted, C82_same, C82_malformed_refuted,
  C82_vocab_refuted, C84_nosubwords_refuted, C85_reader, C86_words_refuted, C86_bound_refuted,
  C86_copy_refuted, C87_metadata, C87_ndarray, C87_reconstruct, C87_subword_indices,
  C89_finalfusion_exact, C91_text_partial, C91_index_refuted, C91_rows_refuted,
  C91_overflow_refuted, C93_negative_refuted, C103_sample_built, C106_word_row,
  C106_one_word_refuted, C107_vector_refuted, C109_sample_built, C111_vocab_refuted.
* `Classical.choice`, `Quot.sound`, `propext`: all other 610 theorems.

## Per property

`proved`: the statement in properties.jsonl, for all inputs. `partial`: the part described in the note
is proved and the rest is refuted by a theorem with a concrete witness.

| id | status | how |
| --- | --- | --- |
| C01 finalfusion write/load round trip | proved | Byte-level writer and reader; exact-parse lemmas per field composed along the file. The exception for an ExplicitVocab without n-grams (excluded in the property) is proved to be a real failure in C01_empty_explicit_refuted. |
| C02 every chunk written on its own can be loaded on its own | partial | The same lemmas with `find_chunk` in front. Proved for simple, bucket, fastText and non-empty explicit vocabularies, both storages, norms and metadata. False for an ExplicitVocab without n-grams, which is written but cannot be read (C02_empty_explicit_refuted; C02_empty_explicit for every such vocabulary, C02_vocab_exact as an equivalence). Header.write is refused (C02_header_refused). |
| C03 advertised chunk length equals the bytes that follow | partial | Length of the writer output. Proved for simple, bucket and fastText vocabularies, storages, norms and metadata. False for ExplicitVocab with at least one n-gram: the length field is 8 bytes per n-gram too small (C03_explicit_field, C03_explicit_refuted). |
| C04 find_chunk locates the first requested chunk | proved | Induction over the chunk sequence; termination by the file length. First matching chunk, None iff no chunk matches, and termination on every byte string. |
| C05 single chunks can be loaded out of a full embeddings file | partial | From C03 and C04. Metadata and vocabulary always; storage and norms whenever the vocabulary is not an ExplicitVocab with n-grams. False there because of the wrong length field: an error (C05_explicit_refuted) or even other numbers (C05_explicit_wrong). |
| C06 file header round trip and rejection | partial | Exact parse and inversion of the reader. C06_exact: which headers are read and which rejected. Round trip and rejection for every non-empty id list; a header with no ids is written but rejected on reading (C06_empty_refuted). |
| C07 float arrays are 4-byte aligned in the file | proved | Arithmetic on the position in writer and reader. Writers and readers, for arbitrary prefixes and arbitrary files. |
| C08 truncated finalfusion files are not loaded as something else | proved | A prefix-failure predicate composed along the reader. Every proper prefix either raises, or is the prefix that ends exactly before the norms chunk, which loads as the same embeddings without norms. |
| C09 truncated standalone chunks are detected | partial | The same predicate. Storages with elements and metadata: every proper prefix is rejected. Vocabularies: every prefix except one ending inside the last word of a non-explicit vocabulary, which may load with that word shortened (C09_vocab_refuted). Norms: prefixes may load with fewer norms (C09_norms_refuted). Storages without elements: C09_empty_storage_refuted. Exact results: C09_storage_any, C09_empty_ndarray_exact, C09_vocab_exact (which prefixes load), C09_norms_exact (which norms they load). |
| C10 anything load_finalfusion returns is consistent | proved | Inversion of the reader on arbitrary bytes. Every byte string, read or memory mapped. |
| C11 loading malformed files raises format errors only | partial | Error kinds by composition along the reader. Every byte string returns or raises one of the listed exceptions; a wrong magic or header is a FinalfusionFormatError. Other malformed input raises other exceptions, shown by the _refuted witnesses. |
| C12 memory mapping and reading give the same embeddings | partial | `memmap` as a checked slice of the file. When both succeed they agree, and a successful mmap implies a successful read. A successful read implies a successful mmap for non-empty matrices; for an empty matrix ending at a page boundary mmap fails (C12_empty_refuted). C12_written_exact: a written file cannot be mapped exactly when its matrix has no elements, there are no norms and its size is a multiple of 4096. |
| C13 on-disk arrays are little-endian on every platform | proved | The machine byte order is a parameter. Both native byte orders, all numpy byte-order flags, one- and two-dimensional arrays of every element width. |
| C14 vocabulary construction accepts exactly unique word lists | proved | Dictionary invariants. Rejection exactly for repeated words; otherwise index, length and membership. |
| C15 every produced index is below upper_bound | partial | Bounds of the indexers. All four vocabulary classes. Missing: an explicit index with negative values, which the constructor accepts, produces an index of a known word (C15_negative_refuted). C15_explicit_exact: exactly negative indices of n-grams of admissible length do. |
| C16 idx, item access and default agree | proved | Case analysis of both lookups. For every vocabulary and string, including the exceptions that pass through. |
| C17 ngrams enumerates exactly the bracketed substrings in range | proved | Specification by start position and length. Multiset, order, count and uniqueness of positions. |
| C18 FinalfusionHashIndexer bulk and single lookups agree | proved | Machine arithmetic, UTF-8. Bulk path against per n-gram call, for every string, offset and bracket flag. |
| C19 FastTextIndexer bulk and single lookups agree | proved | Byte boundary invariant. Bulk path on UTF-8 byte boundaries against per n-gram call; lone surrogates raise (C19_surrogate). |
| C20 ExplicitIndexer bulk and single lookups agree | proved | Filter over the n-grams. Bulk path against dictionary lookups, absent n-grams skipped. |
| C21 hash functions match their published definition | proved | Modular arithmetic. Against a separate Nat specification of FNV-1a. |
| C22 hash indexers stay inside their bucket range | proved | Modular arithmetic. Both hash indexers, single calls and the bulk path. |
| C23 an accepted explicit n-gram index covers exactly 0..upper_bound-1 | partial | Pigeonhole on the values. Proved for an index without negative values and for the enumerated index. Negative values are accepted although they do not cover 0..upper_bound (C23_negative_refuted): the claim holds exactly without them (C23_covers_exact). C23_accepts and C23_accepts_list say exactly which arguments are accepted. |
| C24 to_explicit preserves bucket identity | partial | Invariant of the conversion loop. Proved whenever the conversion succeeds, and it succeeds whenever some known word has an n-gram and no known word contains a lone surrogate. It raises ValueError when no known word has an n-gram (C24_no_ngrams, C24_no_ngrams_refuted). |
| C25 bucket_to_explicit preserves embeddings | partial | Invariant of the copying loop. Known and unknown words have the same embeddings before and after the conversion whenever bucket_to_explicit succeeds, which it does exactly when some known word has an n-gram and numpy can allocate an array of the new shape (C25_success). Partial because the conversion raises ValueError when no known word has an n-gram (C25_no_ngrams_refuted). |
| C26 Embeddings invariants survive every history of updates | proved | Induction over setter histories. Every history of setter calls keeps the embeddings consistent and only legal assignments succeed. A norms value that is not a Norms raises AssertionError although the documentation says TypeError. |
| C27 the three lookup methods agree and never fail | partial | Case analysis. All lookups agree (C27_agree, C27_with_norm) and which of them raise is characterised (C27_errors). Totality is partial: a lone surrogate with a fastText indexer, a quantized code out of range and a negative explicit index raise (three _refuted theorems); C27_raises says exactly when which exception is raised. |
| C28 known words return their own row and norm, unknown words the normalised subword sum | proved | Sums over the reals. Exact over any NumOps and, over the reals, unit length and the direction of the sum of the n-gram rows. A zero sum is excluded: the code divides by zero (NaN). |
| C29 output buffers | proved | Heap model. heap model of numpy arrays; found / default / broadcast / wrong length / missing word for embedding and embedding_with_norm, and QuantizedArray.embedding with out. Finding: with a projection, a strided out is overwritten and then ValueError is raised (C29_quantized_strided). A sum of one-component vectors into a longer out is modelled as ValueError. |
| C30 queries and writers do not modify the embeddings | proved | Heap model, frame calculus, refinement of the value model. heap model with views and aliasing: any sequence of queries and exports, with arbitrary output buffers apart from the arrays of the embeddings, changes only those buffers; later answers are those of the value model. bucket_to_explicit gives a fresh storage but shares the norms (C30_explicit_shares_norms). |
| C31 similarity queries return the true k nearest neighbours | proved | Any admissible argpartition. For every order argpartition, heappush and nlargest may leave (Sel.Admissible, met by Sel.sorting), NdArray storage, non-empty vocabulary; covers _similarity, embedding_similarity, word_similarity and analogy. Scores are compared as floating point numbers (Score): equal scores need not be identical, and no score of a word that is not skipped may be NaN (Comparable; C68 says what happens otherwise). |
| C32 similarity queries return at most k results for any k | partial | Counting. At most k results always; min(k, candidates) results if k + known skips <= len(vocab). The full claim is false: for larger k all three methods raise ValueError (C32_raises, C32_refuted). |
| C33 query words are excluded from answers | proved | From C31. Answers are known words outside the skip set, candidates are exactly the words outside it, None iff a query word has no embedding. |
| C34 similarity queries work for every storage type | partial | Case analysis. Holds for NdArray. False for QuantizedArray: every query raises AttributeError (C34_quantized, C34_refuted). |
| C35 quantized embeddings are the concatenation of their centroids | proved | Component-wise specification. Against a component-wise specification; integers, lists and slices, with the IndexError cases. Shapes as the reader and the constructor document them (QWF). |
| C36 indexing, iterating and converting a quantized storage agree | partial | Induction. Indexing, conversion and full slices agree; iteration agrees for NdArray and for QuantizedArray without norms. With norms iteration gives unscaled vectors (C36_iter_norms, C36_iter_refuted). |
| C37 slicing a storage selects rows like a Python list | proved | Textual rule for slices. Against the textual rule for Python slices, independent of slice.indices; sequences (Norms, NdArray rows) and storages, composition of slices. |
| C38 word2vec round trip | proved | Independent description of the file, writer and loader against it. word2vec: writer inverted to an independent file format, loader total on that format, round trip for every storage/vocabulary; bit exact on float32 |
| C39 truncated word2vec files are rejected | partial | Prefix analysis. every cut raises except those leaving exactly one complete component in the last row (accepted by numpy broadcasting), the final newline, or a header cut with no rows: these are refuted with witnesses; C39_exact states which prefixes load and C39_broadcast what they load |
| C40 text and text-dims round trip | proved | Independent description of the file. both text formats, every separator of blanks/tabs/FF/VT (a line break as separator is not a separator of the format); number printer and parser are parameters assumed inverse on the exported values |
| C41 text rows with a wrong number of components are rejected | partial | Unique reading of a line. every line has a unique reading; a wrong count other than one raises; a single component is broadcast (refuted) |
| C42 fastText round trip of vocabulary, parameters and matrix | proved | Independent description of the file; algebra over the reals. Writer inverted to an independent file format; loader total on that format (whatever follows the input matrix). Over the reals with exactly representable written values the vocabulary always survives, bucket rows are unchanged and each word row is its exported vector divided by its length (C42_round_trip); with unit rows and positive norms storage and norms are identical (C42_same). Words with NUL do not survive (C42_nul_refuted), 2^31 or more buckets cannot be written (C42_bucket_limit). |
| C43 loaders return unit rows with their original norms | proved | Algebra over the reals. word2vec, both text formats and fastText, over the reals; for fastText the vector is the mean of the word row and its n-gram rows. C43_any covers every byte string the loaders accept. |
| C44 lossy decoding only matters for malformed UTF-8 | proved | Both decoders over all byte strings. Every byte string; the word2vec header line is decoded as ASCII in both modes, so lossy loading raises UnicodeDecodeError exactly if that line is not ASCII. Text files are decoded as a whole in the model. C44_utf8 characterises the decoder of the model itself: RFC 3629 and replacement of maximal subparts. |
| C45 ffp-select writes exactly the representable requested words | partial | Induction over the words. Every requested word that has an embedding gets exactly that embedding, no other word is written, without --ignore_unk an unrepresentable word aborts before the output is opened. With --ignore_unk such words are written with a zero vector instead of being skipped (C45_ignore_refuted). The order of set enumeration is an arbitrary oracle; blank lines count as the word "". |
| C46 ffp-analogy --include allows exactly the named query words | partial | Case analysis of the skip set. get_skips is characterised exactly (C46_skips_iff) and correct whenever include names c or does not name b. False otherwise: leaving out c forbids b instead of c (C46_refuted). |
| C47 Norms only accepts one-dimensional float32 arrays | partial | Model of the dtype check. The file written for items of any width meets the description of norms files in Spec/FfOne, from which follows what is loaded. float32 arrays are kept exactly. The dtype check is a no-op, so other dtypes are accepted (C47_accepts, C47_refuted) and a float64 Norms file reads back as halves of the values (C47_float64); for every element type, what is written and how many values come back (C47_any), fewer than there were for float16 (C47_fewer). |
| C48 a rejected export leaves an existing file alone | partial | File system model. Other files are never touched and failing loads leave everything alone (C48_other_files_partial, C48_tools). False for the output itself: write_fasttext truncates the file before its type check, Header.write likewise, and an in-place ffp-convert loses the input (C48_refuted, C48_header, C48_in_place). |
| C49 serialisation is canonical | proved | From C01. Byte identity of a second write, and determinacy of the observable value by the bytes. |
| C50 UTF-8 words survive byte-level storage | proved | Against the UTF-8 encoder of the Lean core library. Against the UTF-8 encoder of the Lean core library; every string, every prefix and every continuation of the file. |
| C51 vocabulary equality is an equivalence consistent with lookups | proved | Equality model. Equality is exactly sameness of class, words, index and indexer, an equivalence relation, and determines every lookup. |
| C52 ffp-convert composes the formats | proved | Composition of C01 with the loaders. ffp-convert from each input format to finalfusion, and its exports. The TOML library is assumed to parse back what it printed (metadata only). Memory-mapped files that are converted onto themselves are the subject of C75. |
| C53 foreign formats load to consistent embeddings | proved | Inversion of the loaders on arbitrary bytes. For every byte string. Finalfusion files: C10. |
| C54 arrays returned by lookups belong to the caller | partial | Heap model. Proved for words without a row of their own and for quantized storages. Refuted for known words of an NdArray: their row itself is returned (C54_row, C54_refuted), which is writable unless memory mapped (C54_mapped). |
| C55 query tools answer every query in order, readably | partial | Induction over the input lines. The order and content of the answers are proved without restriction. Reading the output back is proved for words without line feeds and non-empty results; C55_refuted shows two different results that print alike. A blank line ends ffp-analogy with ValueError. The messages about unknown words on the standard error stream are included. Tracebacks and argument parsing are not modelled. |
| C56 container protocol agrees with lookup | partial | Structural induction over the item; zip semantics of iteration. Proved for vocabularies, explicit indexers, and for embeddings whose storage is not a QuantizedArray with norms. For those iteration gives the unscaled vectors (C56_iter_norms, C56_iter_refuted). Objects other than strings and iterables are one constructor of PyItem. |
| C57 only fastText files of the supported layout load | partial | Inversion of the reader on arbitrary bytes; truncation calculus. Every byte string that loads is inverted to a layout (C57_layout), and every proper prefix of a file is rejected (C57_truncated). The claim that the numbers of the header are checked is refuted: loss and model numbers 0, -1 and -2 count from the end of the enumerations (C57_numbers_refuted), and a negative number of rows is accepted (C57_negative_refuted). C62 describes exactly which files load. |
| C58 normalisation and similarity are accurate up to rounding | proved | Rounding error analysis over summation trees; Cauchy-Schwarz. Standard model of floating point arithmetic: overflow and underflow are excluded by the relative error of every operation. Zero vectors are excluded (their rows are NaN), and no similarity may be NaN. Sample.rounded shows that rounding to 24 bits with unbounded exponent meets the hypotheses. |
| C59 text files load exactly when they are well formed | proved | Inversion of line splitting, field splitting and row loop on arbitrary text; equivalences. Equivalences for every byte string, strict and lossy; load_text_dims looks at the file only as far as the announced rows and the piece of the file they end in. The conversion of strings to numbers is a parameter. |
| C60 word2vec files load exactly when they are well formed | proved | Inversion of the reader on arbitrary bytes; equivalence with an inductive file layout. Equivalence for every byte string, strict and lossy. C60_whitespace, C60_ascii_whitespace, C60_int and C60_decimal say which characters and integer literals this (and C59) means. |
| C61 finalfusion files load exactly when they follow the format | proved | Positional equivalences for every reader, combined chunk by chunk; layout lemmas for the writers. Equivalences with a byte-level description of the format that shares no definition with the readers and writers but the UTF-8 encoder and the shape conditions of arrays; files of up to 2^63-5 bytes. |
| C62 fastText files load exactly when they hold a supported model | proved | Reader inversion to a layout and generalised parsing lemmas for every layout; uniqueness of the described embeddings. Equivalence for every byte string of less than 2^63 bytes, strict and lossy; the embeddings are determined by the file. |
| C63 loaders of single parts accept exactly files whose first such chunk is well formed | proved | Induction over the chain of chunks for find_chunk; positional equivalences of C61 refined at the end of the file. Equivalences for every byte string (of up to 2^63-5 bytes where arrays are read), sharing the description of chunks with C61. |
| C64 exports succeed exactly when the format can express the embeddings | proved | Inversion of the writer monad on success and on failure, inducting over the words. Equivalences for every embeddings; for the text formats under the assumption that numbers print as visible ASCII characters. The remains of a failed export are exact for word2vec and text; for fastText the reason is exact. |
| C65 text files are decoded in pieces and the pieces do not matter | partial | Incremental decoding related to whole decoding by induction over the pieces; lines yielded so far as prefixes. Exact for every cutting of the file. Iteration, load_text, the word list of ffp-select and, on UTF-8 files or in lossy mode, load_text_dims do not depend on the pieces; on other files load_text_dims may or may not raise UnicodeDecodeError (C65_refuted), but never returns anything else (C65_dims). |
| C66 normalisation and export preserve vectors in float32 arithmetic | partial | Binary32 on bit patterns, proved correctly rounded; error analysis with absolute errors over all summation trees. Proved for finite vectors of up to 2^20 components whose computed norm is finite and at least 2^-60, so in particular for lengths between 2^-59 and 2^62 (C66_range). False for others: if the norm is infinite the row is zero, if it is zero the row is infinite or NaN, and the exports are NaN; this happens to every vector with a component of 2^64 or of length 2^65 and to every vector with components of at most 2^-75, for every order of summation (C66_overflow, C66_underflow, C66_all_refuted). C66_cases says that there are no other cases but vectors shorter than 2^-59, for which the norm can be off by 5 percent (C66_short_refuted). C66_determined: correct rounding, as it is specified here, has one result up to the sign of zero. |
| C67 which float32 numbers survive the text formats | proved | Dragon4 and two roundings on integers; midpoint distances by a kernel-checked continued-fraction certificate over all exponent pairs; the rest by interval arguments. The exact set of numbers that survive, by a certificate that no decimal number with up to eight digits is closer than 2^-53 (relatively) to a midpoint between two float32 numbers except for 15 midpoints, which are checked one by one. Text with underscores, whitespace and digits of other scripts is modelled in the reader; the theorem about reading is for plain ASCII decimal numbers. C67_read_exact says that it determines the number. NaN payloads are lost by str. |
| C68 words without a direction are not nearest neighbours | partial | Comparisons of bit patterns; counting NaNs among the candidates; NaN propagates through all summation trees. Proved for vectors whose computed norms are finite and at least 2^-60 (C68_numbers_partial). False with zero vectors: their rows are NaN (C68_zero_vector), and NaN scores are preferred to all numbers, in every arithmetic, for every partition and heap (C68_displaced, C68_all_answered, C68_zero_answers, C68_zero_query, C68_refuted). |
| C69 vectors computed for unknown words and analogies point in the right direction in float32 | partial | Induction over the additions; the lemmas of C66 for the norm, the quotients and the scores. Proved for sums whose computed norm is finite and at least 2^-60; this is so for at most 2^20 rows of at most 2^20 components of at most 2^31 (analogies: 2^50) whose computed sum has a length of at least 2^-59 (C69_range_partial); similarities for words with norms in that range. False if the sum is zero: the vector is NaN and so are all answers, in every arithmetic (C69_unknown_zero, C69_analogy_zero, C69_refuted). |
| C70 fastText files survive in float32 arithmetic | partial | Errors of `(x (k+1) c - s + s) / (k+1)` composed from the rounding lemmas of C66 and C69 over generic reals (Lemmas/Float32FastText); the sum `s` of the n-grams is computed twice, by the writer and by the reader, in different orders. A dominating component keeps the norm away from zero. C70_load: for n-gram counts below 2^20 and components up to 2^100. C70_round_trip_partial and C70_words_partial: the difference is 4(n+4) 2^-24 times the vector plus the mean of the n-gram rows, so a few units in the last place only if the n-grams are not much larger than the word. C70_cancel_refuted: the code loses the vector of a word whose n-grams are 2^24 times larger, it is loaded as NaN. |
| C71 QuantizedArray.embedding for every key and output array | partial | Keys select positions (Spec/Quantized), arrays have a shape and a view of memory; the refinement calculus of C29 relates the calls to values. Exceptions by running the model up to the point where it raises. Broadcasting: the call equals the call on a storage with repeated codes or norms. C71_out_partial: with a projection, out has to be contiguous. C71_strided_refuted: otherwise the code overwrites out with vectors that are not projected and raises ValueError. C71_one_column, C71_columns, C71_one_norm, C71_few_norms, C71_uneven_norms: what storages do whose codes, quantizers and norms do not fit together. |
| C72 quantized vectors in float32 arithmetic | proved | The error of a dot product in any order (lemma of C66), Cauchy-Schwarz, one more rounding for the norm. The same bounds for two instances of the operations give the difference between two machines. Numbers are finite and at most 2^30 in absolute value, vectors have at most 2^20 components. |
| C73 conversions from format to format do not wear vectors out | proved | An inductive relation of files and the number of conversions. One conversion moves components by less than eight units of rounding (C66, C67); moves compose as long as vectors stay in range, which 65536 of them do. Sizes of files by a bound of 256 characters for the text of a number. Vectors have lengths between 2^-58 and 2^61 and at most 2^20 components. C73_changes: a witness that conversions are not exact. |
| C74 command lines of the tools | partial | Model of the `argparse` of CPython 3.11 (classification of words, option chains, abbreviations, greedy matching of positionals) with the five parsers. Words are tokens of a grammar (`Spec/Args.lean`); the loop of `argparse` refines a simple reading from left to right, from which values, exits and rejected orders follow. False for ffp-similar, ffp-analogy and ffp-select: a query or word file that does not directly follow the required words is rejected (C74_similar_refuted, C74_analogy_refuted, C74_select_refuted), and -i swallows the word after its arguments (C74_include_refuted). Everything else is proved. argparse is modelled as in CPython 3.11. |
| C75 memory mapping does not change what the tools do | partial | What becomes of a truncated mapping is an oracle (`Remap`) that sees everything but the mapped matrix. Equality of mapped and read embeddings is C12. True of all tools but ffp-convert, and of ffp-convert if the output is not the mapped input (C75_tools_partial). False for ffp-convert --mmap X X: opening the output truncates the mapped file before anything of the matrix has been read. Whatever the operating system then does, files that differ only in vectors are the same afterwards (C75_overwritten), so at most one of them survives (C75_lost, C75_refuted), while all survive without --mmap (C75_unmapped). |
| C76 no command line makes a tool touch other files | proved | An invariant of the loop of `argparse` over arbitrary words: options have values of their type, positional arguments have words of the command line in order or their defaults, and words that are used up as options were understood. Understood words are those of the grammar of C74. All lists of words, not only those of the grammar of C74. What the options mean is C74. |
| C77 text files consist of words and float literals | proved | The removal of underscores is inverted piece by piece: characters that are no digits separate, between them there are digits with single underscores. What remains is the grammar of decimal numbers of C67, whose parser is inverted as well. Text files follow from C59. For float32 as numpy reads it: float() of the text, then rounding to binary32. Python float literals as in the language reference plus whitespace and the words nan, inf, infinity. C77_parse is an equivalence, C77_text_numbers and C77_dims_numbers describe the loaders including the numbers. C77_space makes the whitespace of the specifications of C40, C59, C60 explicit. |
| C78 both kinds of storages are indexed alike | proved | A key selects positions (the specification of C71); rows are read from the memory of the matrix. Agreement: the rows of numpy.asarray are those of integer indexing (C36), and rows determine the result (C71_unique). Keys are integers, integer arrays or nested lists, one-dimensional boolean arrays, slices and None; tuples and boolean matrices are not modelled. |
| C79 the compiled n-gram code is memory safe | partial | C semantics with faults as values; the loops are shown to append what the loops over natural numbers do, by induction on ranges. Boundaries: the array is filled up to the characters found so far. Overrun: after the counter wraps, each round finds the first byte again. False for fastText words of 4 GiB or more in UTF-8: the unsigned int that counts bytes wraps, and the array of boundaries is overrun (C79_boundaries_overrun, C79_fasttext_overrun). Everything else is proved, for 64-bit platforms and strings of less than 2^62 characters. Running out of memory is not modelled. |
| C80 what is loaded is no larger than its file | partial | From the equivalences C59 to C62, by adding up the lengths of what stands in the file. Refutations: one word and one number; lines with words of growing length and one number each behind a full first line. Holds for finalfusion and fastText, for word2vec files with more than one vector (factor 4) and for text files whose lines have all components (factor 4). False for a vector that consists of one number, which numpy repeats (C80_word2vec_refuted, C80_dims_refuted, C80_text_refuted); for text the square of the size is a bound (C80_text). Sizes of arrays are counted in bytes, of strings in characters. |
| C81 loading does not rest on assertions | partial | By a relation between readers that is kept by sequencing: equal, or the first raises because of an assertion. Refutations: files with fewer rows than words, with a repeated word, and with fewer norms than words. Files that load give the same with and without assertions (C81_same), and outcomes differ only where an assertion fails or its condition divides by zero (C81_only). That what is loaded is still consistent is false: C81_refuted, C81_twice_refuted, C81_norms_refuted. For text and word2vec files C81_text and C81_word2vec say what the assertions reject, for vocabularies and finalfusion files C81_vocab and C81_finalfusion (unless quantized, C81_remainder_refuted). C81_fasttext is the same for fastText files of less than 512 MiB. Without assertions a file with 0 buckets leads to an integer division by zero in C code (C81_crash_refuted, C81_lookup_crash_refuted). |
| C82 loading requests no more memory than the file is large | partial | The readers again, with a budget from which every buffer is taken. A relation kept by sequencing: the same result, or out of memory; a second one: what a successful reader requests is what it has passed in the file. Written files (C82_written), and files whose norms chunk announces the right number (C82_load_partial), load with their own size and 24 bytes; the same holds for storages, metadata and vocabularies that are not the last thing in a file. False in general: the norms chunk may announce any number (C82_norms_refuted, C82_needs), a header any number of chunks (C82_malformed_refuted), and the last word any length (C82_vocab_refuted). Counted are the buffers of file.read and numpy.fromfile as allocated by CPython 3.11 and numpy 1.2x, not the strings and lists made from them. |
| C83 loading other formats requests memory in proportion to the file | partial | The loaders again, with a budget; arrays that live for one statement are borrowed. What suffices is counted as a peak above what has been passed in the file; what is needed follows from the array of n-gram rows alone. word2vec files with other than one vector load with twelve times their size (C83_word2vec_partial), all of them with three times the matrix and eight bytes per word; text files load with exactly twice the matrix and eight bytes per line (C83_text); fastText files with three times their size and the rows of the n-grams of the longest word (C83_fasttext), which is cubic at most (C83_fasttext_cubic). False in general: 32 bytes of word2vec need any amount (C83_word2vec_refuted), fastText files of 10 n bytes may need 2 n^3 (C83_fasttext_refuted), and malformed ones 4 TiB before they are rejected (C83_malformed_refuted). Counted are the arrays of numpy.fromfile, zeros, fancy indexing, mean and norm, and the buffers of file.read, not strings, lists and the temporaries of parsing numbers. |
| C84 fastText models mean the same to fastText | partial | fastText's loops over bytes, written down separately, and the n-grams of the string have the same members without repetition, so they are permutations of each other; sums do not depend on the order. For n-grams of two or more characters: the same indices with the same multiplicities (C84_ngrams_partial), the vectors of words other than </s> (C84_known_partial) and the directions of other vectors (C84_unknown_partial; the reported norm is that of the sum, not of the mean), and the vectors fastText computes from the input matrix of a written file (C84_export_partial). False for </s> (C84_eos_refuted), single characters (C84_single_refuted; C84_single says what differs), models without n-grams (C84_nosubwords_refuted), and no written file is a complete model (C84_output_refuted). |
| C85 word2vec files mean the same to word2vec | partial | The format of word2vec.c and the loop of distance.c are written down separately; the bytes agree with those of C38, and C60 says what loading makes of them. Exports are read by distance.c as they are meant (C85_export). Loading what word2vec.c writes gives its vectors, with the words without the whitespace at their ends, or AssertionError if these are not distinct (C85_load), hence the same words if there is no such whitespace (C85_words_partial). word2vec.c only splits at blanks, tabs and newlines, so its words can end with other whitespace: these are changed or the file does not load (C85_words_refuted). |
| C86 vocabularies keep their meaning | partial | Lists and dicts are numbered objects of a store; every operation of the package is shown to add to the store only, and to compute from it what the value model computes. Holds as long as the caller changes no list or dict that the vocabulary refers to (C86_history_partial; C86_created, C86_indexer, C86_converted and C86_loaded say which these are). The constructors keep the list that they are given, and to_explicit hands on the list of words, so that a change to it makes words and indices disagree (C86_words_refuted, C86_bound_refuted) and reaches from a converted vocabulary to the original (C86_copy_refuted). |
| C87 functions raise the exceptions that they document | partial | Each function is taken with an argument that is None, of the right type or of another one; the exceptions of every step are computed, and compared with conditions on the arguments that are written down from the documentation. Proved for the constructor of embeddings (C87_embeddings), lookups (C87_getitem), the setter of metadata, bucket_to_explicit, the reading of binary data and headers, the functions that load one part of a file, NdArray, PQ, subword_indices and the vocabulary constructors. The documentation is wrong, or the code, for the number of norms in the constructor of embeddings (C87_conditions, C87_conditions_refuted), norms of another type (C87_norms_type_refuted; C87_norms_lengths_partial is the rest), Norms.__new__ (C87_norms_refuted), negative lengths of n-grams (C87_ngrams_refuted; C87_ngrams_partial is the rest), unknown numbers in headers (C87_chunk_header, C87_array_header), an output without dimensions (C87_reconstruct), and a header that is written alone (C87_write_header). |
| C88 exports that are cut short are not loaded as something else | partial | The decoder is followed through a file that ends within a character: only replacement characters or an error come after the cut. The lines before it are those of the complete file, and the cut line has the word and the fields that it begins with, the last of them possibly shortened. Proved for fastText (C88_fasttext): exactly the prefixes that miss nothing but a part of the trailing copy of the storage are loaded, as the complete file is. The code violates it for the others. word2vec: all words and all vectors but the last are right, the last may repeat its first component (C88_word2vec_partial, C39_refuted). Text with dimensions: the same, and the last number may be cut (C88_dims_partial, C88_dims_refuted). Text: words may be missing (C88_text_partial, C88_text_refuted) and, if the first line is cut, components (C88_text_first_refuted). |
| C89 loading takes a number of steps in proportion to the file | partial | Every round of a loop is paid from a budget of steps. The readers are followed with the number of bytes that are left: each round moves the file forward, so that its steps are covered by the bytes it has read; a loop whose count is wrong ends with the exception at the end of the file. For loaded files the number of steps is computed exactly. Proved for finalfusion (C89_finalfusion; exactly two steps per word and stored n-gram, C89_finalfusion_exact), its parts (C89_parts), word2vec (C89_word2vec, C89_word2vec_exact) and text (C89_text). The code violates it for fastText: a word of 3 m letters in a model with n-grams of all lengths takes at least m^3 steps (C89_fasttext_refuted, C89_fasttext_needs); the bound is cubic in general (C89_fasttext_cubic) and in proportion to the file for a fixed n-gram range (C89_fasttext_partial). |
| C90 the tools do not depend on the locale | partial | Spec/Locale says how a text is spelled in an encoding, as a relation. Decoding in pieces gives the text that is spelled, whatever the pieces (induction over the pieces, with the carriage return that is pending); encoding gives a spelling if there is one. The tools see only the lines, so that equal texts give equal answers. The negations are concrete runs. The code violates it: files are opened in the encoding of the locale. A query in UTF-8 is unknown in a locale with ISO 8859-1 and raises UnicodeDecodeError in one with ASCII (C90_found_refuted); neighbours that the encoding does not have cannot be printed (C90_stdout_refuted); a word list selects other words, without a warning if there are subwords (C90_select_refuted). Proved: the same for every two files that spell the same text in their encodings (C90_lines, C90_found_partial, C90_select_partial), what iterating over any file yields in any encoding, lossily or not (C90_yields, C90_yields_total), for files in ASCII in all locales (C90_ascii), what is printed and where printing stops (C90_stdout_partial, C90_stdout_stops), and that undecodable files raise UnicodeDecodeError after the lines before (C90_undecodable). |
| C91 loaders of other formats raise a documented kind of error | partial | A calculus of the exceptions of readers (Lemmas/Errs) is followed through the loaders. That the n-grams of a fastText word can be encoded needs that decoding gives no surrogates (Lemmas/Scalars, Lemmas/LoadScalars). The negations are concrete files. Proved: the complete list of exceptions of each loader (C91_word2vec_partial, C91_text_partial, C91_fasttext_partial; text files if float() raises nothing but ValueError, which C77 proves for float32). The code violates it: a word that occurs twice raises AssertionError in all formats (C91_duplicate_refuted), an empty file StopIteration in load_text_dims (C91_empty_refuted), and in load_fasttext an unknown loss or model IndexError (C91_index_refuted), a matrix with fewer rows than words IndexError (C91_rows_refuted), and a huge one OverflowError (C91_overflow_refuted). |
| C92 text that was read from files can be encoded again | proved | Decoding gives no surrogates (Lemmas/Scalars), and lines, stripping, splitting and n-grams only rearrange characters. A calculus of the exceptions of readers, writers and pure functions (Lemmas/NoEnc) is followed through lookups, conversions, writers and tools; answers to queries are words of the vocabulary. For every file: the words and n-grams (C92_loaded, C92_explicit), lookups (C92_lookup), writers of all formats (C92_write), ffp-convert and ffp-bucket-to-explicit (C92_convert, except onto the file that is mapped, see C52), ffp-select (C92_select), ffp-similar and ffp-analogy (C92_queries). Assumed of the toml package: it does not raise UnicodeEncodeError and writes text without surrogates (TomlSafe); of numbers: their text is ASCII. |
| C93 the order of the words does not matter | proved | Words take their rows along and n-gram indices start after the words, so lookups agree (C15). Answers are k best candidates (C31); two such lists are compared position by position with the pigeonhole principle. Lookups (C93_lookup), the three queries (C93_similarity, C93_word_similarity, C93_analogy), identical answers without ties (C93_unique), fewer words (C93_fewer). That n-gram indices are not negative is necessary (C93_negative_refuted); the constructor accepts negative ones, see C15. The queries of an empty vocabulary are left out: numpy releases differ. |
| C94 a selection answers as its source does among the selected words | proved | The rows of a selection are the vectors of its source (C45). A complete ranking has every word outside the skip set, so that its entries among the selected words are a list of best candidates of the selection; two such lists are compared as in C93. Nearest neighbours among the selected words by the vectors of the source (C94_nearest), restriction of the complete ranking (C94_ranking, C94_word_similarity, C94_analogy), from file to file (C94_files). Norms are lost (C94_no_norms, C94_norms_refuted). Selections of unrepresentable words with --ignore_unk are not covered, see C45. |
| C95 damage to a number in a file changes that number only | proved | From the exact description of loadable files (C61): every part of it depends only on the bytes in its place, and other bytes in the place of a number are the encoding of another number. Matrices (C95_matrix, C95_byte), norms (C95_norms), codes (C95_codes), centroids (C95_centroids); lookups of other words (C95_others). Damage is not noticed: C95_unnoticed_refuted. Norms and projection of a quantized matrix: C95_quantized_norms, C95_projection. |
| C96 answers to different queries agree with one another | proved | The answers that are left after words have been removed are nearest neighbours without these words; two lists of nearest neighbours agree up to ties (C93). C96_more, C96_skip, C96_word, C96_analogy and C96_symmetric (for symmetric dot products). Numbers of answers beyond the vocabulary raise, see C32. |
| C97 what follows a file does not change what was in it | proved | The parts of a finalfusion file are determined by its bytes and stay where they are (C61); line feeds separate text and lines even if the bytes before them are malformed; the other loaders stop behind the last row. C97_finalfusion, C97_finalfusion_norms, C97_finalfusion_two, C97_word2vec, C97_fasttext, C97_text and C97_text_dims. The files have to be smaller than 2^63 bytes. |
| C98 saved and converted embeddings answer as the original | proved | Embeddings with the same parts differ in the order of the explicit index only, which no query sees; the conversion keeps the rows of the words, and the rows of n-grams of known words by C25.C99	A positive factor cancels in the quotient of vector and norm, in sums and in means; dot products of normalised vectors are cosines. C98_same and C98_same_exports for embeddings with the same parts, C98_saved and C98_convert for files; C98_explicit_lookup, C98_explicit, C98_explicit_quantized and C98_explicit_files for the conversion, where it succeeds (C25_success). Mapped files must not have an empty matrix (C12), and lists have fewer than 2^63 items. |
| C99 answers depend on the directions of the vectors only | proved | C99_word2vec, C99_text and C99_fasttext for the factors, C99_word_similarity and C99_analogy for the cosines; exact arithmetic (C58 bounds the error of word_similarity in rounded arithmetic). |
| C100 exported embeddings answer as the original | proved | The exported vector is norm times row; its length is the norm and its direction the row, so loading gives both back. C100_word2vec, C100_text and C100_fasttext; C100_loaded shows that the loaders give embeddings they apply to; exact arithmetic. |
| C101 analogies are right up to rounding | proved | Errors of the normalised components add up to a bound of the error of the target; a small change of a vector changes its cosines by at most twice the relative change. C101_analogy for loaded embeddings with explicit error; C101_float32 gives numbers. No overflow or underflow, no NaN. |
| C102 analogies in float32 arithmetic | proved | The errors of the normalised rows, of the subtraction and of the addition bound the error of the target, with an absolute part for underflow; then as C101. C102_analogy for rows that are normalised vectors, C102_word2vec, C102_text and C102_fasttext for loaded files; for all operations that are those of binary32 up to the order of summation (Binary32). |
| C103 damage to a word in a file | proved | The encoding of the words is split at the word; the parts before and after it are the same bytes. Then the byte-level description of files (C11) for the first case, and execution of the reader up to the vocabulary for the two exceptions. C103_word (loading) and C103_lookup (vectors). |
| C104 what in a file load_finalfusion does not look at | proved | Every part of the byte-level description (C61) has a frame lemma: it holds of another file that agrees on the bytes the part constrains. C104_unread and C104_byte; C104_parts_refuted is the file on which load_finalfusion and load_storage disagree. |
| C105 damage to a vector in a word2vec file | proved | Induction over the exact description of the rows of a word2vec file (C60); any 4 n bytes are the encoding of n numbers. C105_word2vec (loading) and C105_others (lookups). |
| C106 damage to a row of a fastText file | proved | The exact description of fastText files (C62) with another row; what is loaded is determined by the rows each word uses. C106_fasttext (loading and lookups), C106_word_row (rows of words); C106_one_word_refuted shows in float32 that one bit of the row of a bucket changes the vectors of several words. |
| C107 damage to a word in a fastText file | proved | The exact description of fastText files (C62) with another entry; a calculus for readers that raise a given exception. C107_fasttext has all three cases; C107_vector_refuted shows in float32 that the vector of the damaged word changes. A zero byte ends the word early and moves everything behind it; nothing is claimed about that. |
| C108 damage to a word in a word2vec file | proved | The exact description of word2vec files (C60) is deterministic: header, words and vectors are determined by the bytes. C108_word2vec (loading, an equivalence) and C108_lookup (lookups). A space ends the word early and moves everything behind it; nothing is claimed about that. |
| C109 damage to the lengths of n-grams in a file | proved | The byte-level description of files (C61) with two fields replaced; the constructors of the indexers check the lengths first. C109_range (loading) and C109_words (lookups of known words); C109_unknown_refuted shows that unknown words cannot be included. |
| C110 damage to the number of buckets in a file | proved | As C109; the constructor of the indexer or, at the end, the comparison with the number of rows fails. C110_buckets. The check is an assertion; without assertions (python -O) the damage is not noticed (C110_optimized_refuted). |
| C111 files of another kind or version, and damaged chunk identifiers | proved | The header from C06; for identifiers the description of files (C61) up to the damaged chunk, then execution of the reader. C111_magic, C111_metadata, C111_vocab, C111_storage, C111_norms. C111_vocab_refuted shows that the restriction on identifiers is needed. |
| C112 damage to the number of rows and to types in a file | proved | If the damaged file loads, the description of files (C61) holds of it too; the parts before the field are read in one way only, so the field has the value it had. C112_rows, C112_types, C112_norms. Which exception is raised is not part of the statement: fewer rows leave bytes that are read as the next chunk. The number of rows is compared by an assertion. |
| C113 damage to an n-gram in a file | proved | As C103, for the list of n-grams; the lookup from the order of the index of a loaded vocabulary. C113_ngram (loading), C113_call with C113_ordered (indices of n-grams), C113_words (words of the vocabulary). |
| C114 damage to the index of an n-gram in a file | proved | As C113, for the indices; a set of indices with another bound is caught by the comparison with the rows of the storage, one without a bound by the indexer. C114_index (loading), C114_single (an index that only one n-gram has), C114_call (indices of n-grams). |
