{"id": "C01", "title": "finalfusion write/load round trip", "statement": "If Embeddings.write(file) returns without raising, load_finalfusion(file) returns embeddings with the same words in the same order and the same word and n-gram indices, the same indexer parameters, a bit-identical storage, bit-identical norms (or none) and equal metadata (or none).", "quantifier": "every Embeddings value with a SimpleVocab, FinalfusionBucketVocab or FastTextVocab or a non-empty-indexer ExplicitVocab, every NdArray or QuantizedArray storage, with or without norms and metadata, any Unicode words, any sizes", "why_tests_cant": "the space of vocabularies, matrices and metadata is unbounded; fixtures exercise a handful of files", "anchors": ["src/finalfusion/embeddings.py: Embeddings.write, load_finalfusion, chunks", "src/finalfusion/io.py: Header", "src/finalfusion/vocab/simple_vocab.py: SimpleVocab.write_chunk/read_chunk", "src/finalfusion/vocab/subword.py: write_chunk/read_chunk", "src/finalfusion/storage/ndarray.py", "src/finalfusion/storage/quantized.py", "src/finalfusion/norms.py", "src/finalfusion/metadata.py"]}
{"id": "C02", "title": "every chunk written on its own can be loaded on its own", "statement": "For each vocabulary, storage, norms and metadata object, if chunk.write(file) succeeds then the matching loader (load_vocab, load_storage, load_norms, load_metadata and the specific loaders) returns an equal object; an ExplicitVocab whose n-gram list is empty is expected to round trip too.", "quantifier": "every chunk value of every chunk type", "why_tests_cant": "unbounded inputs; the empty-n-gram corner is never exercised by the fixtures", "anchors": ["src/finalfusion/io.py: Chunk.write, find_chunk", "src/finalfusion/vocab/subword.py: ExplicitVocab.read_chunk", "src/finalfusion/subword/explicit_indexer.pyx: ExplicitIndexer.__init__", "src/finalfusion/vocab/vocab.py: _read_items, _read_items_with_indices"]}
{"id": "C03", "title": "advertised chunk length equals the bytes that follow", "statement": "For every chunk written, the length field in its chunk header equals the number of bytes from just after that field to the end of the chunk, so a reader that does not know the chunk can skip it.", "quantifier": "every chunk of every type at every file position", "why_tests_cant": "the length is computed independently of the writes; only a proof covers all contents and paddings", "anchors": ["src/finalfusion/vocab/subword.py: ExplicitVocab.write_chunk, _write_bucket_vocab", "src/finalfusion/vocab/simple_vocab.py: write_chunk", "src/finalfusion/storage/ndarray.py: write_chunk", "src/finalfusion/storage/quantized.py: write_chunk", "src/finalfusion/norms.py: write_chunk", "src/finalfusion/metadata.py: write_chunk", "src/finalfusion/vocab/vocab.py: _calculate_binary_list_size"]}
{"id": "C04", "title": "find_chunk locates the first requested chunk", "statement": "On a file consisting of a header and a sequence of chunks with correct lengths, find_chunk(file, ids) returns the id of the first chunk in file order whose id is in ids and leaves the file exactly at that chunk's content, returns None iff no chunk matches, and terminates on every byte string.", "quantifier": "every sequence of well-formed chunks, every set of requested ids, every file position before the call, every byte string (termination)", "why_tests_cant": "unbounded number and size of chunks", "anchors": ["src/finalfusion/io.py: find_chunk, _read_chunk_header", "src/finalfusion/vocab/__init__.py: load_vocab", "src/finalfusion/storage/__init__.py: load_storage"]}
{"id": "C05", "title": "single chunks can be loaded out of a full embeddings file", "statement": "For every embeddings file written by Embeddings.write, load_vocab, load_storage, load_norms and load_metadata return the corresponding component of the embeddings (and ValueError if it has none).", "quantifier": "every Embeddings value that can be written, whatever its vocabulary type", "why_tests_cant": "depends on all length fields of all preceding chunks for all contents", "anchors": ["src/finalfusion/io.py: find_chunk", "src/finalfusion/vocab/subword.py: ExplicitVocab.write_chunk", "src/finalfusion/storage/__init__.py: load_storage", "src/finalfusion/norms.py: load_norms", "src/finalfusion/metadata.py: load_metadata"]}
{"id": "C06", "title": "file header round trip and rejection", "statement": "Header.read_chunk accepts exactly the byte strings that start with 'FiFu', version 0 and a chunk count followed by that many ids, returns the ids written, and raises FinalfusionFormatError on everything else.", "quantifier": "every list of chunk ids and every byte string", "why_tests_cant": "all byte strings", "anchors": ["src/finalfusion/io.py: Header.read_chunk, Header.write_chunk, _read_required_binary"]}
{"id": "C07", "title": "float arrays are 4-byte aligned in the file", "statement": "The first element of every float array inside an NdArray, QuantizedArray or NdNorms chunk lies at a file offset divisible by 4, whatever precedes the chunk, and writer and reader agree on the padding.", "quantifier": "every file prefix (any words, any metadata) and every array", "why_tests_cant": "padding depends on the total length of all preceding words modulo 4", "anchors": ["src/finalfusion/io.py: _pad_float32", "src/finalfusion/storage/ndarray.py: write_chunk, _read_array_header", "src/finalfusion/storage/quantized.py: write_chunk", "src/finalfusion/norms.py: write_chunk"]}
{"id": "C08", "title": "truncated finalfusion files are not loaded as something else", "statement": "If a finalfusion file written from embeddings is cut off at any byte (crash during write), load_finalfusion raises; the only cut that loads is the one exactly in front of the norms chunk, and it yields the same embeddings without norms.", "quantifier": "every written embeddings with a non-empty matrix and every crash point (prefix length)", "why_tests_cant": "every cut point of every file", "anchors": ["src/finalfusion/embeddings.py: load_finalfusion", "src/finalfusion/io.py: _read_binary", "src/finalfusion/vocab/vocab.py: _read_items", "src/finalfusion/storage/ndarray.py: read_chunk", "src/finalfusion/storage/quantized.py: read_chunk", "src/finalfusion/norms.py: read_chunk"]}
{"id": "C09", "title": "truncated standalone chunks are detected", "statement": "If a file holding a single vocabulary, storage, norms or metadata chunk is cut off at any byte, the chunk's loader raises instead of returning different data.", "quantifier": "every written chunk and every crash point", "why_tests_cant": "every cut point of every file", "anchors": ["src/finalfusion/vocab/vocab.py: _read_items", "src/finalfusion/norms.py: read_chunk", "src/finalfusion/storage/ndarray.py: read_chunk", "src/finalfusion/storage/quantized.py: read_chunk", "src/finalfusion/metadata.py: read_chunk"]}
{"id": "C10", "title": "anything load_finalfusion returns is consistent", "statement": "For every byte string on which load_finalfusion succeeds, the result has unique words, word_index[words[i]] = i, as many matrix rows as the vocabulary's upper bound, norms (if any) one per word, and every index the vocabulary can ever produce is a valid row.", "quantifier": "every byte string, including malformed and adversarial files", "why_tests_cant": "all byte strings", "anchors": ["src/finalfusion/embeddings.py: load_finalfusion, _check_requirements, _norms_compat", "src/finalfusion/subword/explicit_indexer.pyx: ExplicitIndexer.__init__", "src/finalfusion/vocab/vocab.py: _validate_items_and_create_index"]}
{"id": "C11", "title": "loading malformed files raises format errors only", "statement": "On every byte string load_finalfusion returns or raises; malformed input is reported as FinalfusionFormatError.", "quantifier": "every byte string", "why_tests_cant": "all byte strings", "anchors": ["src/finalfusion/embeddings.py: load_finalfusion", "src/finalfusion/io.py: FinalfusionFormatError, _read_chunk_header", "src/finalfusion/storage/quantized.py: _read_quantized_header"]}
{"id": "C12", "title": "memory mapping and reading give the same embeddings", "statement": "load_finalfusion(file, mmap=True) and load_finalfusion(file) return the same vocabulary, matrix, norms and metadata on every file where mapping succeeds, and mapping succeeds on every file with a complete storage.", "quantifier": "every byte string", "why_tests_cant": "all byte strings", "anchors": ["src/finalfusion/storage/ndarray.py: mmap_chunk, read_chunk", "src/finalfusion/storage/quantized.py: mmap_chunk, read_chunk", "src/finalfusion/embeddings.py: load_finalfusion"]}
{"id": "C13", "title": "on-disk arrays are little-endian on every platform", "statement": "The bytes written for an array depend only on its values: they are the little-endian encodings of the elements in row-major order on little- and big-endian machines and for arrays of either byte order, and reading them back yields the same values on either machine.", "quantifier": "every array, both native byte orders, all numpy byte-order flags", "why_tests_cant": "CI runs on one endianness", "anchors": ["src/finalfusion/io.py: _serialize_array_as_le, _read_array_as_native"]}
{"id": "C14", "title": "vocabulary construction accepts exactly unique word lists", "statement": "SimpleVocab(words) and the other vocabulary constructors raise AssertionError iff words contains a duplicate; otherwise word_index is the inverse of words: word_index[w] = i iff words[i] = w, len(vocab) = len(words), and membership is exactly occurrence in words.", "quantifier": "every word list", "why_tests_cant": "all lists", "anchors": ["src/finalfusion/vocab/vocab.py: _validate_items_and_create_index, Vocab.__contains__, Vocab.__len__", "src/finalfusion/vocab/simple_vocab.py: SimpleVocab.__init__"]}
{"id": "C15", "title": "every produced index is below upper_bound", "statement": "For every string, vocab[item], vocab.idx(item) and vocab.subword_indices(item) only produce indices in [0, upper_bound); known words map below len(vocab) and n-gram indices at or above it.", "quantifier": "every vocabulary, every query string (any Unicode code points)", "why_tests_cant": "all strings and hash values", "anchors": ["src/finalfusion/vocab/subword.py: SubwordVocab.idx, subword_indices, upper_bound", "src/finalfusion/subword/hash_indexers.pyx", "src/finalfusion/subword/explicit_indexer.pyx"]}
{"id": "C16", "title": "idx, item access and default agree", "statement": "vocab[item] raises KeyError iff vocab.idx(item) returns None; otherwise both return the same index or index list; idx(item, default) returns default exactly in the former case; known words always win over subwords.", "quantifier": "every vocabulary, query and default", "why_tests_cant": "all strings", "anchors": ["src/finalfusion/vocab/subword.py: SubwordVocab.idx, __getitem__", "src/finalfusion/vocab/simple_vocab.py: idx", "src/finalfusion/vocab/vocab.py: __getitem__"]}
{"id": "C17", "title": "ngrams enumerates exactly the bracketed substrings in range", "statement": "ngrams(word, min_n, max_n, bracket) lists every occurrence of every substring of the (bracketed) word whose length is between min_n and max_n, ordered by start position and then from longest to shortest, with the expected total count, and raises AssertionError iff not max_n >= min_n > 0.", "quantifier": "every string and every (min_n, max_n)", "why_tests_cant": "all strings and ranges", "anchors": ["src/finalfusion/subword/ngrams.pyx: ngrams"]}
{"id": "C18", "title": "FinalfusionHashIndexer bulk and single lookups agree", "statement": "subword_indices(word, offset, bracket, with_ngrams=True) equals the list of (g, offset + indexer(g)) for g in ngrams(word, min_n, max_n, bracket), and without with_ngrams it is the list of second components.", "quantifier": "every word, offset (below 2^64 - 2^bucket_exp), n-gram range and bucket exponent", "why_tests_cant": "all strings", "anchors": ["src/finalfusion/subword/hash_indexers.pyx: FinalfusionHashIndexer.subword_indices, __call__, fifu_hash_ngram"]}
{"id": "C19", "title": "FastTextIndexer bulk and single lookups agree", "statement": "The same for FastTextIndexer: slicing the UTF-8 encoded word at the detected character boundaries hashes exactly the UTF-8 encoding of each n-gram.", "quantifier": "every encodable word including multi-byte characters, every offset, range and bucket count", "why_tests_cant": "all strings of 1- to 4-byte characters", "anchors": ["src/finalfusion/subword/hash_indexers.pyx: FastTextIndexer.subword_indices, __call__, find_utf8_boundaries, ft_hash_ngram"]}
{"id": "C20", "title": "ExplicitIndexer bulk and single lookups agree", "statement": "ExplicitIndexer.subword_indices(word, offset, bracket, with_ngrams=True) is the list of (g, offset + index[g]) for those g in ngrams(word, ...) that are in the index, in order.", "quantifier": "every index, word and offset", "why_tests_cant": "all strings", "anchors": ["src/finalfusion/subword/explicit_indexer.pyx: ExplicitIndexer.subword_indices, __call__"]}
{"id": "C21", "title": "hash functions match their published definition", "statement": "The Finalfusion indexer hashes an n-gram with 64-bit FNV-1a over the 8-byte little-endian length followed by the 4-byte little-endian code points (the shift-and-add code is multiplication by the FNV prime); the fastText indexer applies 32-bit FNV-1a to the sign-extended UTF-8 bytes; buckets are the low bucket_exp bits, respectively the remainder modulo n_buckets.", "quantifier": "every n-gram", "why_tests_cant": "all strings; interoperability with other implementations needs equality everywhere", "anchors": ["src/finalfusion/subword/hash_indexers.pyx: fifu_hash_ngram, ft_hash_ngram", "src/fnv/hash_64a.c: fnv_64a_buf"]}
{"id": "C22", "title": "hash indexers stay inside their bucket range", "statement": "indexer(ngram) is in [0, upper_bound) and every value from subword_indices(word, offset) is in [offset, offset + upper_bound) as long as offset + upper_bound fits in 64 bits.", "quantifier": "every n-gram, word, offset and indexer parameter", "why_tests_cant": "all hash values", "anchors": ["src/finalfusion/subword/hash_indexers.pyx"]}
{"id": "C23", "title": "an accepted explicit n-gram index covers exactly 0..upper_bound-1", "statement": "If ExplicitIndexer(ngrams, min_n, max_n, ngram_index) is accepted, ngram_index indexes exactly the listed n-grams and its values are exactly 0, ..., upper_bound - 1.", "quantifier": "every n-gram list and every integer-valued mapping", "why_tests_cant": "all mappings, including negative values", "anchors": ["src/finalfusion/subword/explicit_indexer.pyx: ExplicitIndexer.__init__"]}
{"id": "C24", "title": "to_explicit preserves bucket identity", "statement": "bucket_vocab.to_explicit() keeps the words, indexes exactly the n-grams of the known words, maps two of them to the same index iff they share a bucket, and uses the indices 0..upper_bound-1 in order of first occurrence.", "quantifier": "every FinalfusionBucketVocab and FastTextVocab", "why_tests_cant": "all vocabularies; collisions are rare in fixtures", "anchors": ["src/finalfusion/vocab/subword.py: _bucket_to_explicit, to_explicit"]}
{"id": "C25", "title": "bucket_to_explicit preserves embeddings", "statement": "For every known word, and every unknown word all of whose n-grams occur in known words, embeds.bucket_to_explicit() gives the same embedding as embeds; unknown words with other n-grams use exactly the known ones.", "quantifier": "every embeddings with a hash-based vocabulary and any storage, every query", "why_tests_cant": "all words and hash collisions", "anchors": ["src/finalfusion/embeddings.py: bucket_to_explicit", "src/finalfusion/vocab/subword.py: _bucket_to_explicit"]}
{"id": "C26", "title": "Embeddings invariants survive every history of updates", "statement": "After any sequence of norms and metadata assignments, including rejected ones, the embeddings satisfy: rows == vocab.upper_bound, norms is None or has one entry per word, metadata is None or Metadata, and a rejected assignment changes nothing.", "quantifier": "every sequence of setter calls with any arguments", "why_tests_cant": "all histories", "anchors": ["src/finalfusion/embeddings.py: Embeddings.__init__, norms.setter, metadata.setter, _norms_compat"]}
{"id": "C27", "title": "the three lookup methods agree and never fail", "statement": "embeds[w] raises KeyError iff embeds.embedding(w) is None; otherwise embeds[w], embedding(w) and embedding_with_norm(w)[0] are the same vector; embedding(w) never raises for any string; embedding_with_norm raises TypeError iff there are no norms.", "quantifier": "every valid embeddings and every query string", "why_tests_cant": "all strings", "anchors": ["src/finalfusion/embeddings.py: __getitem__, embedding, embedding_with_norm, _embedding"]}
{"id": "C28", "title": "known words return their own row and norm, unknown words the normalised subword sum", "statement": "For words[i] the lookup returns storage row i (and norms[i]); for other strings with n-gram indices it returns the sum of those rows divided by the L2 norm of the sum, reports that norm, and the vector has unit norm unless the sum is zero.", "quantifier": "every embeddings and query; arithmetic over the reals", "why_tests_cant": "all vectors", "anchors": ["src/finalfusion/embeddings.py: _embedding"]}
{"id": "C29", "title": "output buffers", "statement": "embedding(w, out=buf, default=d) writes the result into buf and returns buf; if w has no embedding buf receives d and is returned when d is given, and buf is left untouched and None returned otherwise; embedding_with_norm behaves alike.", "quantifier": "every query, buffer content and default", "why_tests_cant": "all combinations", "anchors": ["src/finalfusion/embeddings.py: embedding, embedding_with_norm, _embedding"]}
{"id": "C30", "title": "queries and writers do not modify the embeddings", "statement": "No lookup, similarity, analogy or export call changes the storage or the norms, although several of them use in-place numpy operations on arrays that may be views of the storage.", "quantifier": "every embeddings, query and sequence of calls", "why_tests_cant": "aliasing bugs only show for particular call orders", "anchors": ["src/finalfusion/embeddings.py: _embedding, analogy, _similarity", "src/finalfusion/compat/fasttext.py: _write_ft_storage_subwords", "src/finalfusion/compat/word2vec.py: write_word2vec", "src/finalfusion/compat/text.py: _write_text"]}
{"id": "C31", "title": "similarity queries return the true k nearest neighbours", "statement": "embedding_similarity(query, k, skip) returns k results sorted by descending similarity, none of them in skip, each with the dot product of its row, such that no word outside skip and the result is strictly more similar than any result, whatever partition order numpy chooses.", "quantifier": "every matrix, query, k and skip set with k + |known skips| <= len(vocab), every admissible argpartition", "why_tests_cant": "numpy's partition order and ties are unspecified", "anchors": ["src/finalfusion/embeddings.py: _similarity, embedding_similarity, word_similarity, SimilarityResult"]}
{"id": "C32", "title": "similarity queries return at most k results for any k", "statement": "word_similarity(query, k), embedding_similarity and analogy return min(k, number of candidates) results for every k, including k larger than the vocabulary.", "quantifier": "every k and every vocabulary size", "why_tests_cant": "fixtures have vocabularies larger than k", "anchors": ["src/finalfusion/embeddings.py: _similarity"]}
{"id": "C33", "title": "query words are excluded from answers", "statement": "word_similarity(q) never answers q; analogy(a, b, c) without skip never answers a, b or c; with skip it answers exactly from the words outside skip; None is returned iff one of the words has no embedding.", "quantifier": "every query and vocabulary", "why_tests_cant": "all words", "anchors": ["src/finalfusion/embeddings.py: word_similarity, analogy"]}
{"id": "C34", "title": "similarity queries work for every storage type", "statement": "embedding_similarity, word_similarity and analogy give results for embeddings backed by a QuantizedArray as for those backed by an NdArray.", "quantifier": "every storage", "why_tests_cant": "only array-backed fixtures are queried", "anchors": ["src/finalfusion/embeddings.py: _similarity", "src/finalfusion/storage/quantized.py: QuantizedArray.__getitem__"]}
{"id": "C35", "title": "quantized embeddings are the concatenation of their centroids", "statement": "Indexing a QuantizedArray gives, for row i, norms[i] * P * concat_j(centroid_j[code_ij]) (without the factors that are absent), for integers (negative too), lists and slices alike; its length is reconstructed_len.", "quantifier": "every quantizer, code matrix, projection and norms, every key", "why_tests_cant": "all shapes", "anchors": ["src/finalfusion/storage/quantized.py: PQ.reconstruct, QuantizedArray.embedding, __getitem__"]}
{"id": "C36", "title": "indexing, iterating and converting a quantized storage agree", "statement": "list(storage)[i], storage[i], numpy.asarray(storage)[i] and storage[:][i] are the same vector.", "quantifier": "every QuantizedArray, with and without norms", "why_tests_cant": "fixtures have no norms", "anchors": ["src/finalfusion/storage/quantized.py: __iter__, __array__, embedding"]}
{"id": "C37", "title": "slicing a storage selects rows like a Python list", "statement": "For every slice s, storage[s] has exactly the rows list(range(n))[s], for NdArray, Norms and QuantizedArray, including negative bounds and steps, and slicing composes.", "quantifier": "every storage and every (start, stop, step)", "why_tests_cant": "random slices sample the space", "anchors": ["src/finalfusion/storage/quantized.py: __getitem__", "src/finalfusion/storage/ndarray.py: __getitem__", "src/finalfusion/norms.py: __getitem__"]}
{"id": "C38", "title": "word2vec round trip", "statement": "If no word contains a space or starts or ends with whitespace, write_word2vec followed by load_word2vec returns the same words in the same order with the same vectors (scaled by the norms, then normalised); subword rows are dropped.", "quantifier": "every embeddings satisfying the word condition; bit-exact on the stored vectors", "why_tests_cant": "all words and vectors", "anchors": ["src/finalfusion/compat/word2vec.py: write_word2vec, load_word2vec, _read_binary_word"]}
{"id": "C39", "title": "truncated word2vec files are rejected", "statement": "If a word2vec file is cut off at any byte inside its payload, load_word2vec raises.", "quantifier": "every written file and crash point", "why_tests_cant": "every cut point", "anchors": ["src/finalfusion/compat/word2vec.py: load_word2vec"]}
{"id": "C40", "title": "text and text-dims round trip", "statement": "If no word contains ASCII whitespace and the number printer and parser are inverse, write_text/load_text and write_text_dims/load_text_dims return the same words and the same vectors.", "quantifier": "every non-empty embeddings satisfying the word condition, every whitespace separator", "why_tests_cant": "all words and vectors", "anchors": ["src/finalfusion/compat/text.py: _write_text, _load_text, load_text, load_text_dims"]}
{"id": "C41", "title": "text rows with a wrong number of components are rejected", "statement": "A line whose number of components differs from the declared dimensionality makes load_text and load_text_dims raise.", "quantifier": "every text file", "why_tests_cant": "all malformed files", "anchors": ["src/finalfusion/compat/text.py: _load_text"]}
{"id": "C42", "title": "fastText round trip of vocabulary, parameters and matrix", "statement": "write_fasttext followed by load_fasttext returns the same words, n-gram range and bucket count and, over exact arithmetic, the same matrix and norms: undoing and redoing the subword precomputation and the normalisation cancel.", "quantifier": "every FastTextVocab embeddings with no NUL in words, word rows of length one and positive norms, whose written values are exactly representable", "why_tests_cant": "all vocabularies and matrices", "anchors": ["src/finalfusion/compat/fasttext.py: write_fasttext, load_fasttext, _precompute_word_vecs, _write_ft_storage_subwords"]}
{"id": "C43", "title": "loaders return unit rows with their original norms", "statement": "load_word2vec, load_text, load_text_dims and load_fasttext return word rows of L2 norm 1 with norms holding the original length, so norm * row is the vector in the file, and exporting restores it.", "quantifier": "every input matrix without zero rows, over exact arithmetic", "why_tests_cant": "all matrices", "anchors": ["src/finalfusion/_util.py: _normalize_matrix", "src/finalfusion/compat/word2vec.py", "src/finalfusion/compat/text.py", "src/finalfusion/compat/fasttext.py"]}
{"id": "C44", "title": "lossy decoding only matters for malformed UTF-8", "statement": "With lossy=True loading never fails because of malformed UTF-8, and on words that are valid UTF-8 gives the same result as lossy=False; each maximal subpart of an ill-formed sequence becomes one U+FFFD.", "quantifier": "every byte string", "why_tests_cant": "all byte strings", "anchors": ["src/finalfusion/compat/word2vec.py: _read_binary_word", "src/finalfusion/compat/fasttext.py: _read_binary_word", "src/finalfusion/compat/text.py: load_text"]}
{"id": "C45", "title": "ffp-select writes exactly the representable requested words", "statement": "ffp-select writes an embedding for every requested representable word equal to the source embedding; with --ignore_unk unrepresentable words are skipped, without it they abort the command.", "quantifier": "every source embeddings and every word list", "why_tests_cant": "all word lists", "anchors": ["src/finalfusion/scripts/select.py: main"]}
{"id": "C46", "title": "ffp-analogy --include allows exactly the named query words", "statement": "With -i, the query words named by include may be answers and the others may not.", "quantifier": "every query and every include list", "why_tests_cant": "few combinations are exercised", "anchors": ["src/finalfusion/scripts/analogy.py: get_skips"]}
{"id": "C47", "title": "Norms only accepts one-dimensional float32 arrays", "statement": "Norms(array) raises TypeError unless array is a 1-d float32 array, so every Norms chunk on disk holds the norms it was built from.", "quantifier": "every array", "why_tests_cant": "tests never construct a float64 Norms", "anchors": ["src/finalfusion/norms.py: Norms.__new__, write_chunk"]}
{"id": "C48", "title": "a rejected export leaves an existing file alone", "statement": "When write_fasttext refuses embeddings because their vocabulary is not a FastTextVocab, an existing file at the output path keeps its content.", "quantifier": "every embeddings and existing file", "why_tests_cant": "tests write to fresh paths", "anchors": ["src/finalfusion/compat/fasttext.py: write_fasttext", "src/finalfusion/io.py: Chunk.write"]}
{"id": "C49", "title": "serialisation is canonical", "statement": "Writing, loading and writing again produces byte-identical finalfusion files.", "quantifier": "every embeddings", "why_tests_cant": "all embeddings", "anchors": ["src/finalfusion/embeddings.py: Embeddings.write, load_finalfusion"]}
{"id": "C50", "title": "UTF-8 words survive byte-level storage", "statement": "Every string without lone surrogates is stored as its UTF-8 bytes preceded by its byte length and read back unchanged; a string with a lone surrogate makes the writer raise.", "quantifier": "every string of Unicode code points", "why_tests_cant": "1.1 million code points in any combination", "anchors": ["src/finalfusion/vocab/vocab.py: _write_words_binary, _read_items"]}
{"id": "C51", "title": "vocabulary equality is an equivalence consistent with lookups", "statement": "Two vocabularies compare equal iff they have the same type, words, indices and indexer; equal vocabularies answer every lookup alike.", "quantifier": "every pair of vocabularies", "why_tests_cant": "all pairs", "anchors": ["src/finalfusion/vocab/vocab.py: Vocab.__eq__", "src/finalfusion/vocab/subword.py: SubwordVocab.__eq__", "src/finalfusion/subword/explicit_indexer.pyx: __eq__"]}
{"id": "C52", "title": "ffp-convert composes the formats", "statement": "ffp-convert between two formats writes exactly what the target writer writes for what the source loader loads; converting to finalfusion and loading gives what loading the source directly gives. A memory-mapped file is not converted onto itself (for this see C75).", "quantifier": "every input file, format pair, options and paths but a mapped file as its own output", "why_tests_cant": "all files", "anchors": ["src/finalfusion/scripts/convert.py: main", "src/finalfusion/scripts/util.py: Format"]}
{"id": "C53", "title": "foreign formats load to consistent embeddings", "statement": "Whatever load_word2vec, load_text, load_text_dims and load_fasttext return for any bytes is consistent: distinct words numbered by position, one storage row per word or bucket, one norm per word, rows of the announced length, every index a query gives is the number of a row.", "quantifier": "every byte string and decoding option", "why_tests_cant": "all byte strings, including malformed ones that happen to load", "anchors": ["src/finalfusion/compat/word2vec.py: load_word2vec", "src/finalfusion/compat/text.py: load_text, load_text_dims", "src/finalfusion/compat/fasttext.py: load_fasttext"]}
{"id": "C54", "title": "arrays returned by lookups belong to the caller", "statement": "Changing an array returned by __getitem__, embedding or embedding_with_norm changes neither the embeddings nor any other existing array.", "quantifier": "every embeddings, word and later modification of the returned array", "why_tests_cant": "needs aliasing of memory to be observed for all later writes", "anchors": ["src/finalfusion/embeddings.py: Embeddings._embedding, __getitem__, embedding, embedding_with_norm", "src/finalfusion/storage/ndarray.py: NdArray.__getitem__"]}
{"id": "C55", "title": "query tools answer every query in order, readably", "statement": "ffp-similar answers exactly the non-blank input lines and ffp-analogy every input line, in order, with word_similarity and analogy until the first exception; the printed output determines the results.", "quantifier": "every input file and every embeddings", "why_tests_cant": "all inputs; ambiguity of output only shows for particular words", "anchors": ["src/finalfusion/scripts/similar.py: main", "src/finalfusion/scripts/analogy.py: main"]}
{"id": "C56", "title": "container protocol agrees with lookup", "statement": "len, in, iteration and item access of vocabularies, explicit indexers and embeddings agree: iteration gives every word (n-gram) once in index order, as many as len; in holds exactly for these, and for arbitrarily nested iterables of them; iterating over embeddings pairs every word with the vector item access returns and its norm.", "quantifier": "every vocabulary, indexer, embeddings and (nested) item", "why_tests_cant": "nested items and all embeddings; iteration with quantized storages and norms", "anchors": ["src/finalfusion/vocab/vocab.py: Vocab.__contains__, __iter__, __len__", "src/finalfusion/subword/explicit_indexer.pyx: ExplicitIndexer.__contains__, __getitem__, __iter__, __len__", "src/finalfusion/embeddings.py: Embeddings.__contains__, __iter__"]}
{"id": "C57", "title": "only fastText files of the supported layout load", "statement": "load_fasttext accepts only files that begin with the layout it understands: the magic number and version, a known loss and model, no labels, no pruned vocabulary, every entry a word, an unquantized matrix, each field complete; what it returns is determined by that layout and a file cut off before its end is rejected.", "quantifier": "every byte string, decoding option and cut", "why_tests_cant": "all byte strings", "anchors": ["src/finalfusion/compat/fasttext.py: load_fasttext, _read_ft_header, _read_ft_cfg, _read_ft_vocab, _read_ft_storage", "src/finalfusion/io.py: _read_required_binary"]}
{"id": "C58", "title": "normalisation and similarity are accurate up to rounding", "statement": "When every floating point operation has a relative error of at most u, rows of loaded word2vec, text and fastText embeddings have length one up to rounding, re-exporting them changes a component by at most two roundings, unknown words get unit vectors up to rounding, and word_similarity returns cosine similarities of the original vectors up to an explicit error (1.3e-4 in float32 up to 1024 dimensions), with no omitted word better than an answer by more than twice that.", "quantifier": "every file, number of dimensions, word, summation order and rounding within the relative error", "why_tests_cant": "rounding depends on the values and on the order of summation chosen by numpy", "anchors": ["src/finalfusion/embeddings.py: Embeddings.word_similarity, _embedding, _similarity", "src/finalfusion/compat/word2vec.py: load_word2vec, write_word2vec", "src/finalfusion/compat/text.py: load_text, load_text_dims", "src/finalfusion/compat/fasttext.py: load_fasttext"]}
{"id": "C59", "title": "text files load exactly when they are well formed", "statement": "load_text and load_text_dims succeed exactly on UTF-8 files (any files, decoded with replacement, if lossy; load_text_dims needs only the pieces up to the last announced row to be UTF-8) whose lines (ended by LF, CRLF or CR) read as a word and the right number of numbers separated by whitespace (one number counting as repeated), with distinct words, and return these words and vectors normalised; how lines end never matters.", "quantifier": "every byte string; every way to end lines", "why_tests_cant": "all byte strings, all mixtures of line ends and whitespace", "anchors": ["src/finalfusion/compat/text.py: load_text, load_text_dims, _load_text"]}
{"id": "C60", "title": "word2vec files load exactly when they are well formed", "statement": "load_word2vec succeeds exactly on files that begin with a line of two integers and as many space-terminated UTF-8 words (any bytes, decoded with replacement, if lossy), each followed by its vector, as announced (the last vector possibly cut after one component), with words that are distinct once stripped, and returns these words and vectors normalised.", "quantifier": "every byte string", "why_tests_cant": "all byte strings", "anchors": ["src/finalfusion/compat/word2vec.py: load_word2vec, _read_binary_word"]}
{"id": "C61", "title": "finalfusion files load exactly when they follow the format", "statement": "load_finalfusion succeeds exactly on files that hold, position by position, a header, optional metadata, one of the four vocabulary chunks, a storage chunk with the number of rows the vocabulary needs, and optionally one norm per word (plus, when mapping, an empty matrix inside the file), and returns what these fields say; Embeddings.write succeeds exactly when all values fit into their fields and writes exactly the canonical bytes.", "quantifier": "every byte string, every embeddings, both loading modes", "why_tests_cant": "all byte strings; fields nobody looks at, fields that are looked at twice", "anchors": ["src/finalfusion/embeddings.py: load_finalfusion, Embeddings.write", "src/finalfusion/io.py: Header.read_chunk, Header.write_chunk, _read_chunk_header", "src/finalfusion/vocab/vocab.py: load_vocab, write_chunk, read_chunk", "src/finalfusion/storage/ndarray.py: NdArray.read_chunk, mmap_chunk, write_chunk", "src/finalfusion/storage/quantized.py: QuantizedArray.read_chunk, mmap_chunk, write_chunk", "src/finalfusion/norms.py: Norms.read_chunk, write_chunk", "src/finalfusion/metadata.py: Metadata.read_chunk, write_chunk"]}
{"id": "C62", "title": "fastText files load exactly when they hold a supported model", "statement": "load_fasttext succeeds exactly on files with the magic number, version 12, twelve arguments, a dictionary without labels and pruning whose entries are all words with text that decodes (strictly or with replacement) to distinct strings, positive n-gram parameters, and an unquantized matrix with one row per word and bucket; loss and model are numbered 1 to 3 or, from the end, 0 to -2, and one negative dimension of the matrix stands for the rest of the file. It returns these words, arguments and vectors: for every word the normalised mean of its row and the rows of its n-grams.", "quantifier": "every byte string, strict and lossy", "why_tests_cant": "all byte strings; numbers outside the ranges of the format", "anchors": ["src/finalfusion/compat/fasttext.py: load_fasttext, _read_ft_header, _read_ft_cfg, _read_ft_vocab, _read_binary_word, _read_ft_storage, _precompute_word_vecs"]}
{"id": "C63", "title": "loaders of single parts accept exactly files whose first such chunk is well formed", "statement": "find_chunk goes from chunk to chunk by the announced lengths and stops at the first wanted one, or returns None exactly when the lengths lead past the end; load_vocab, load_storage, load_norms, load_metadata and the loaders for one vocabulary or storage type succeed exactly if the chunk found this way holds the value they return, position by position (the last word of a vocabulary may be cut off by the end of the file, and norms may be fewer than announced), and raise ValueError if there is no such chunk; load_vocab and load_metadata agree with load_finalfusion on every file it accepts.", "quantifier": "every byte string, all ten loaders", "why_tests_cant": "all byte strings; chains of chunks of any length with arbitrary announced lengths", "anchors": ["src/finalfusion/io.py: find_chunk, _read_chunk_header", "src/finalfusion/vocab/vocab.py: load_vocab", "src/finalfusion/vocab/simple_vocab.py: load_simple_vocab", "src/finalfusion/vocab/subword.py: load_finalfusion_bucket_vocab, load_fasttext_vocab, load_explicit_vocab", "src/finalfusion/storage/__init__.py: load_storage", "src/finalfusion/storage/ndarray.py: load_ndarray", "src/finalfusion/storage/quantized.py: load_quantized_array", "src/finalfusion/norms.py: load_norms", "src/finalfusion/metadata.py: load_metadata"]}
{"id": "C64", "title": "exports succeed exactly when the format can express the embeddings", "statement": "write_word2vec, write_text and write_text_dims succeed exactly if every word has a vector (its quantized row has no code without centroid) and every word, and the separator if it is used, can be encoded; write_fasttext exactly for fastText vocabularies, plain matrices, sizes below 2^31 and encodable words (files below 2^63 bytes); what is written is the whole file of the format. A raised exception names the reason, and the file then holds the header, announcing all words, and the complete entries of the words before the one that failed.", "quantifier": "every embeddings, separator and position of the first failure", "why_tests_cant": "all embeddings; failures in the middle of an export", "anchors": ["src/finalfusion/compat/word2vec.py: write_word2vec", "src/finalfusion/compat/text.py: write_text, write_text_dims, _write_text", "src/finalfusion/compat/fasttext.py: write_fasttext, _write_ft_cfg, _write_ft_vocab, _write_ft_storage_subwords", "src/finalfusion/io.py: _serialize_array_as_le, _write_binary"]}
{"id": "C65", "title": "text files are decoded in pieces and the pieces do not matter", "statement": "Decoding a text file piece by piece, with characters and CRLF divided between pieces, yields the lines of the whole text; a file that is not UTF-8 yields the complete lines of the pieces before the first that makes this certain and then raises UnicodeDecodeError. So load_text, ffp-select and ffp-convert do the same however the file is cut into pieces, load_text_dims at least for UTF-8 files and in lossy mode, and the query tools answer the queries before the malformed piece.", "quantifier": "every byte string, every way to cut it into pieces, strict and lossy", "why_tests_cant": "buffer sizes, short reads and files larger than a buffer; characters at every offset from a boundary", "anchors": ["src/finalfusion/compat/text.py: load_text, load_text_dims, _load_text", "src/finalfusion/scripts/select.py: main", "src/finalfusion/scripts/similar.py: main", "src/finalfusion/scripts/analogy.py: main"]}
{"id": "C66", "title": "normalisation and export preserve vectors in float32 arithmetic", "statement": "In IEEE 754 binary32 arithmetic (sums in any order, fused or not), loading a word2vec, text or fastText file and exporting it again restores every finite, nonzero vector up to rounding: the stored row is finite and has length one, the norm is finite and the length of the vector, and exported components differ by a few units in the last place. word_similarity returns cosine similarities up to (3n + 16) 2^-24.", "quantifier": "every file, all 2^32 bit patterns, every order of summation", "why_tests_cant": "overflow, underflow and rounding depend on values; 2^32 patterns per component", "anchors": ["src/finalfusion/_util.py: _normalize_matrix", "src/finalfusion/embeddings.py: Embeddings.word_similarity, _similarity", "src/finalfusion/compat/word2vec.py: load_word2vec, write_word2vec", "src/finalfusion/compat/text.py: load_text, load_text_dims, write_text", "src/finalfusion/compat/fasttext.py: load_fasttext"]}
{"id": "C67", "title": "which float32 numbers survive the text formats", "statement": "The text of a finite float32 number is a decimal number that is rounded to it, with at most nine digits, and no number with fewer digits is. A decimal number is read by rounding it to binary64 and then to binary32. A number that is not NaN is read as itself after being written exactly if it is not 7.038531e-26 or its negative, which are read as their successors; NaNs become one NaN. So embeddings whose exported vectors hold other numbers survive write_text and load_text exactly as written.", "quantifier": "all 2^32 bit patterns, every decimal text", "why_tests_cant": "4294967296 numbers; the only failing one is not found by sampling, and decimal texts are unbounded", "anchors": ["src/finalfusion/compat/text.py: load_text, load_text_dims, _load_text, write_text, write_text_dims, _write_text"]}
{"id": "C68", "title": "words without a direction are not nearest neighbours", "statement": "If at least k words that are not skipped have a number as similarity, word_similarity and embedding_similarity answer with numbers only, in the order of the numbers, and no word left out has a larger one: a word whose vector is zero, and whose similarity is therefore NaN, does not displace a word with a direction. Comparisons are those of IEEE 754: -0 equals 0 and NaN is unordered.", "quantifier": "every file, k, skip set, arithmetic of binary32, partition and heap", "why_tests_cant": "test files have no zero vectors; what argpartition and heapq do with NaN is not visible in the results for other files", "anchors": ["src/finalfusion/embeddings.py: Embeddings._similarity, word_similarity, embedding_similarity, SimilarityResult", "src/finalfusion/_util.py: _normalize_matrix"]}
{"id": "C69", "title": "vectors computed for unknown words and analogies point in the right direction in float32", "statement": "In IEEE 754 binary32 arithmetic the vector of an unknown word is the sum of the vectors of its n-grams, right up to one rounding per addition, divided by its length: it is finite, has length one up to (n + 8) 2^-24, and the reported norm is the length of the sum. word_similarity of an unknown word and analogy answer by cosine similarity to that sum, or to c + (b - a), up to (3n + 16) 2^-24; no word left out is more similar by more than twice that.", "quantifier": "every embeddings, unknown word, three query words, skip set, k, order of summation and bit patterns", "why_tests_cant": "cancellation and rounding depend on values; sums over arbitrarily many n-grams", "anchors": ["src/finalfusion/embeddings.py: Embeddings.__getitem__, embedding, embedding_with_norm, _embed, word_similarity, analogy, _similarity"]}
{"id": "C70", "title": "fastText files survive in float32 arithmetic", "statement": "In IEEE 754 binary32 arithmetic the vector of a word in a fastText file is the mean of its row and the rows of its n-grams, right up to one rounding per addition and one for the division. Embeddings that are written as fastText and loaded again have the same vocabulary, the same rows for the n-grams, and vectors for the words that differ from the old ones by a few units in the last place.", "quantifier": "every fastText file, every embeddings with fastText vocabulary and array storage, norms and n-gram counts, order of summation and bit patterns", "why_tests_cant": "the rounding of a subtraction depends on how much larger the n-grams are than the word; sums over arbitrarily many n-grams", "anchors": ["src/finalfusion/compat/fasttext.py: load_fasttext, write_fasttext, _read_ft_storage, _precompute_word_vecs, _write_ft_storage_subwords", "src/finalfusion/_util.py: _normalize_matrix"]}
{"id": "C71", "title": "QuantizedArray.embedding for every key and output array", "statement": "For an integer, a list or array of integers with any number of dimensions, a boolean array or a slice, QuantizedArray.embedding returns an array with one more dimension than the selection that holds the reconstructed and scaled vectors of the selected rows. Without out the array is new; an out of that shape is returned and nothing else changes. Keys that select nothing, codes that are not centroids, an out of another shape and a read-only out raise the documented exceptions and change no array. Indexing does the same, except that slices give storages and None is a TypeError.", "quantifier": "every storage, key, shape, output array and memory", "why_tests_cant": "keys and outputs have arbitrarily many dimensions and strides; aliasing and partial writes are not visible in returned values", "anchors": ["src/finalfusion/storage/quantized.py: PQ.reconstruct, QuantizedArray.embedding, QuantizedArray.__getitem__"]}
{"id": "C72", "title": "quantized vectors in float32 arithmetic", "statement": "In IEEE 754 binary32 arithmetic (sums in any order, fused or not), the vectors of a quantized storage whose numbers are finite and at most 2^30 are finite. Without a projection they are the centroids, multiplied by the norm and correctly rounded, the same on every machine. With a projection of m columns each component is the norm times the scalar product of a row of the projection with the centroids, up to 2 (m + 1) 2^-24 times the norm and the lengths of both; two machines differ by at most twice that. This holds for every key of embedding.", "quantifier": "every quantized storage with such numbers, key, order of summation and pair of machines", "why_tests_cant": "rounding depends on values and on the order in which the linear algebra library adds; test data has neither projection nor large values", "anchors": ["src/finalfusion/storage/quantized.py: PQ.reconstruct, QuantizedArray.embedding"]}
{"id": "C73", "title": "conversions from format to format do not wear vectors out", "statement": "Embeddings whose words are expressible in all formats are saved as finalfusion, word2vec, text or text with dimensions, and the file is converted by ffp-convert from format to format, k <= 65536 files in all, with any options, paths and changes of other files (but no memory-mapped file is converted onto itself, see C75). In IEEE 754 binary32 arithmetic the last file loads, words and their order are the same, and every component has moved by at most 8 k 2^-24 of itself plus k 2^-84 of the length of its vector. None of the conversions fails if there are no n-grams and no metadata and files are of manageable size. Conversions are not exact: a word2vec file with vectors (1, 1) is converted to a different word2vec file.", "quantifier": "every such embedding matrix with vectors of length 2^-58 to 2^61, chain of formats, options and paths", "why_tests_cant": "each load divides by norms and each save multiplies by them in float32; whether errors pile up or vectors leave the range of exact conversion shows only over arbitrarily long chains", "anchors": ["src/finalfusion/scripts/convert.py: main", "src/finalfusion/compat/word2vec.py: load_word2vec, write_word2vec", "src/finalfusion/compat/text.py: load_text, load_text_dims, write_text", "src/finalfusion/embeddings.py: load_finalfusion, Embeddings.write"]}
{"id": "C74", "title": "command lines of the tools", "statement": "A command line is a sequence of words and options; options may be spelled -k 5, -k5, -k=5, -lk5, --from text, --from=text or abbreviated, -- ends them, and the last one counts. Each of the five tools runs with the words as its positional arguments, in order, and the formats, switches, numbers and includes the options say or their defaults; without a query or word file it reads the standard input. With --help, an option that does not exist, a wrong argument of an option or a wrong number of words it ends before any file is opened.", "quantifier": "every command line of this grammar, tool, standard input and file system", "why_tests_cant": "orders and spellings of options combine without bound; the repository has no test of any command line", "anchors": ["src/finalfusion/scripts/convert.py: main", "src/finalfusion/scripts/bucket_to_explicit.py: main", "src/finalfusion/scripts/similar.py: main", "src/finalfusion/scripts/analogy.py: main", "src/finalfusion/scripts/select.py: main", "src/finalfusion/scripts/util.py: add_input_output_args, add_format_args, add_common_args"]}
{"id": "C75", "title": "memory mapping does not change what the tools do", "statement": "With --mmap every tool ends in the same way, writes the same files and gives the same answers as without, on every input that can be mapped, also if the output is the mapped input. In particular ffp-convert of a finalfusion file onto itself leaves a file with the same embeddings.", "quantifier": "every file, format, option, output path and behaviour of the operating system towards mappings of truncated files", "why_tests_cant": "the mapping is only read after the output has been opened; tests write to fresh paths", "anchors": ["src/finalfusion/scripts/convert.py: main", "src/finalfusion/scripts/select.py: main", "src/finalfusion/scripts/bucket_to_explicit.py: main", "src/finalfusion/scripts/similar.py: main", "src/finalfusion/scripts/analogy.py: main", "src/finalfusion/storage/ndarray.py: mmap_chunk", "src/finalfusion/storage/quantized.py: mmap_chunk", "src/finalfusion/embeddings.py: Embeddings.write"]}
{"id": "C76", "title": "no command line makes a tool touch other files", "statement": "Whatever words a tool is called with, it either exits while reading them, or works on files named by words of the command line in the order of these words. Only with two -- it may also raise an error before changing anything. Nothing changes but one file that is a word of the command line, and if a tool gets to work, then every word before -- that looks like an option sets options of the tool.", "quantifier": "every list of words, tool, standard input and file system", "why_tests_cant": "the lists of words are unbounded; abbreviations, glued letters and -- combine in ways no list of cases covers", "anchors": ["src/finalfusion/scripts/convert.py: main", "src/finalfusion/scripts/bucket_to_explicit.py: main", "src/finalfusion/scripts/similar.py: main", "src/finalfusion/scripts/analogy.py: main", "src/finalfusion/scripts/select.py: main", "src/finalfusion/scripts/util.py: add_input_output_args, add_format_args, add_common_args"]}
{"id": "C77", "title": "text files consist of words and float literals", "statement": "A component of a text file is read exactly if it is a float literal: a sign, digits of any script with single underscores between digits, a point and an exponent, or nan, inf or infinity in any case, with whitespace around it; it becomes the number it stands for, rounded to binary64 and then to binary32, and anything else is a ValueError. load_text and load_text_dims accept exactly files whose lines are a word and such literals, as many as the first line or header says or a single one, with distinct words.", "quantifier": "every text, every file, strict and lossy decoding", "why_tests_cant": "literals are unbounded and mix scripts, underscores, signs and exponents; test data only has plain decimals", "anchors": ["src/finalfusion/compat/text.py: load_text, load_text_dims, _load_text"]}
{"id": "C78", "title": "both kinds of storages are indexed alike", "statement": "NdArray accepts exactly two-dimensional float32 arrays. storage[key] for an integer is the row itself, so writing to it changes this row and no other; for arrays of integers or booleans it is a new array with the selected rows, and writing to it does not change the storage; for slices it is a storage of the selected rows in the same memory; other keys raise IndexError, or ValueError for a slice. An NdArray with the numbers of a QuantizedArray, such as NdArray(numpy.asarray(q)), gives the same shapes, numbers and exceptions for every key but None, which is a TypeError for a QuantizedArray and adds a dimension for an NdArray. Norms are indexed in the same way.", "quantifier": "every matrix, quantized matrix, integer, integer array of any shape, boolean array and slice", "why_tests_cant": "the shapes of keys are unbounded; tests index a few rows of small matrices and never compare the two kinds of storages for the same key", "anchors": ["src/finalfusion/storage/ndarray.py: NdArray.__new__, NdArray.__getitem__", "src/finalfusion/storage/quantized.py: QuantizedArray.__getitem__, QuantizedArray.__array__", "src/finalfusion/norms.py: Norms.__getitem__"]}
{"id": "C79", "title": "the compiled n-gram code is memory safe", "statement": "The C code behind ngrams, the subword_indices of the three indexers and their __call__ accesses its arrays only within their bounds, uses no memory that it has not written, has no signed overflow and no division by zero, and finds the n-grams and indices that exact arithmetic on the characters of the word gives. This also holds for objects on which __init__ has not been called.", "quantifier": "every string, offset, bracketing and value of the fields; every byte string for the search of character boundaries", "why_tests_cant": "out of bounds accesses need not crash, and the lengths at which the 32 and 64-bit counters wrap are out of reach of tests", "anchors": ["src/finalfusion/subword/hash_indexers.pyx: find_utf8_boundaries, ft_hash_ngram, fifu_hash_ngram, FastTextIndexer.subword_indices, FastTextIndexer.__call__, FinalfusionHashIndexer.subword_indices, FinalfusionHashIndexer.__call__", "src/finalfusion/subword/explicit_indexer.pyx: ExplicitIndexer.subword_indices", "src/finalfusion/subword/ngrams.pyx: ngrams", "src/fnv/hash_64a.c: fnv_64a_buf"]}
{"id": "C80", "title": "what is loaded is no larger than its file", "statement": "Words, n-grams, vectors and norms that a reader returns take no more room than the file, up to a small constant factor: a small file cannot make the program hold large matrices.", "quantifier": "every file that loads, for finalfusion (mapped or not), fastText, word2vec, text and text with dimensions, strictly or lossily decoded", "why_tests_cant": "needs malicious files, for which sizes are unbounded; tests load well-formed files only", "anchors": ["src/finalfusion/embeddings.py: load_finalfusion", "src/finalfusion/compat/fasttext.py: load_fasttext", "src/finalfusion/compat/word2vec.py: load_word2vec", "src/finalfusion/compat/text.py: load_text, load_text_dims, _load_text"]}
{"id": "C81", "title": "loading does not rest on assertions", "statement": "With assertions switched off (python -O) the readers return the same objects for files that they accept with assertions, and raise the same exceptions otherwise except where an assertion fails; and what they return is still consistent: distinct words, a vector for every word, a norm for every word, and no division by zero in compiled code.", "quantifier": "every file, mapped or not, strictly or lossily decoded, for load_finalfusion, load_vocab, load_storage, load_fasttext, load_word2vec, load_text and load_text_dims", "why_tests_cant": "the test suite itself consists of assertions, so it is never run with assertions off", "anchors": ["src/finalfusion/vocab/vocab.py: _validate_items_and_create_index", "src/finalfusion/embeddings.py: Embeddings.__init__, _check_requirements, _norms_compat, load_finalfusion", "src/finalfusion/storage/quantized.py: PQ.__init__, _read_quantized_header", "src/finalfusion/compat/word2vec.py: load_word2vec", "src/finalfusion/compat/text.py: load_text, load_text_dims, _load_text"]}
{"id": "C82", "title": "loading requests no more memory than the file is large", "statement": "The buffers that are allocated while a finalfusion file is loaded are together no larger than the file and a few bytes, so that a small file cannot exhaust the memory; with a smaller budget the result is the same or MemoryError.", "quantifier": "every file and every amount of memory, mapped or not, for load_finalfusion, load_vocab, load_storage, load_metadata and load_norms", "why_tests_cant": "buffers are allocated for the sizes that the file announces, which are up to 2^63 bytes; tests only load files whose sizes are right", "anchors": ["src/finalfusion/embeddings.py: load_finalfusion", "src/finalfusion/io.py: Header.read_chunk, _read_binary, find_chunk", "src/finalfusion/vocab/vocab.py: _read_items, load_vocab", "src/finalfusion/norms.py: Norms.read_chunk", "src/finalfusion/storage/ndarray.py: NdArray.read_chunk", "src/finalfusion/storage/quantized.py: QuantizedArray.read_chunk", "src/finalfusion/metadata.py: Metadata.read_chunk"]}
{"id": "C83", "title": "loading other formats requests memory in proportion to the file", "statement": "The arrays that are allocated while a word2vec, text or fastText file is loaded are together no larger than a small multiple of the file, so that a small file cannot exhaust the memory; with a smaller budget the result is the same or MemoryError.", "quantifier": "every file and every amount of memory, strictly or lossily decoded, for load_word2vec, load_text, load_text_dims and load_fasttext", "why_tests_cant": "arrays are allocated for the sizes that the file announces and for all n-grams of a word; tests only load small files whose sizes are right", "anchors": ["src/finalfusion/compat/word2vec.py: load_word2vec", "src/finalfusion/compat/text.py: load_text, load_text_dims, _load_text", "src/finalfusion/compat/fasttext.py: load_fasttext, _read_ft_storage, _precompute_word_vecs", "src/finalfusion/_util.py: _normalize_matrix"]}
{"id": "C84", "title": "fastText models mean the same to fastText", "statement": "The n-grams of a word and their indices are those that fastText computes; the vectors that load_fasttext gives for words of the model and for other words are those of fastText's getWordVector, up to the length of the vector, which is kept as the norm; and the files that write_fasttext produces are models for fastText, with the same vectors.", "quantifier": "every model file, word and embeddings, in exact arithmetic", "why_tests_cant": "needs the fastText program to compare with; the test suite has one small model, without </s> among the words that it compares", "anchors": ["src/finalfusion/compat/fasttext.py: load_fasttext, _precompute_word_vecs, _read_ft_storage, write_fasttext, _write_ft_storage_subwords", "src/finalfusion/subword/hash_indexers.pyx: FastTextIndexer.subword_indices, ft_hash_ngram, find_utf8_boundaries"]}
{"id": "C85", "title": "word2vec files mean the same to word2vec", "statement": "What write_word2vec produces is read by word2vec's own distance program with the same words and vectors, and load_word2vec reads the files that word2vec writes with the words and vectors that are in them.", "quantifier": "every embeddings whose words distance.c can hold, and every file that word2vec.c can write with valid UTF-8", "why_tests_cant": "needs the word2vec programs to compare with; the words of the test files contain no unusual whitespace", "anchors": ["src/finalfusion/compat/word2vec.py: load_word2vec, write_word2vec"]}
{"id": "C86", "title": "vocabularies keep their meaning", "statement": "A vocabulary keeps its words, indices and n-grams whatever happens to other objects: creating, converting and loading other vocabularies changes nothing that exists, what is loaded shares nothing with anything else, and a vocabulary stays as it is unless a list or dict that it refers to is changed.", "quantifier": "every program that makes lists, dicts, indexers and vocabularies, converts and loads vocabularies, and changes lists and dicts, in any order", "why_tests_cant": "the damage shows only after a list is changed that is shared with another object; tests make a list for each vocabulary and leave it alone", "anchors": ["src/finalfusion/vocab/vocab.py: _validate_items_and_create_index", "src/finalfusion/vocab/simple_vocab.py: SimpleVocab.__init__, words, word_index, read_chunk", "src/finalfusion/vocab/subword.py: SubwordVocab.__init__, words, word_index, FinalfusionBucketVocab.to_explicit, FastTextVocab.to_explicit, _bucket_to_explicit_vocab, read_chunk", "src/finalfusion/subword/explicit_indexer.pyx: ExplicitIndexer.__init__, ngrams, ngram_index"]}
{"id": "C87", "title": "functions raise the exceptions that they document", "statement": "Where the documentation of a function says which exception is raised under which condition, this exception is raised if and only if the condition holds: for constructors with arguments of any type, lookups, setters, conversions, the readers of headers, the functions that load one part of a file, and the functions for n-grams.", "quantifier": "every argument of any type, every embeddings, every file and position", "why_tests_cant": "tests of exceptions try a value or two that should be rejected; they do not look for values that are rejected although they should not be, nor for other exceptions", "anchors": ["src/finalfusion/embeddings.py: Embeddings.__init__, __getitem__, norms, metadata, bucket_to_explicit, _check_requirements, _norms_compat", "src/finalfusion/io.py: Chunk.write, _read_binary, _read_chunk_header, _read_array_header", "src/finalfusion/vocab/vocab.py: load_vocab", "src/finalfusion/vocab/subword.py: FinalfusionBucketVocab.__init__, FastTextVocab.__init__, ExplicitVocab.__init__, load_*", "src/finalfusion/storage/ndarray.py: NdArray.__new__, load_ndarray", "src/finalfusion/storage/quantized.py: PQ.__init__, PQ.reconstruct, load_quantized_array", "src/finalfusion/norms.py: Norms.__new__, load_norms", "src/finalfusion/metadata.py: load_metadata", "src/finalfusion/subword/hash_indexers.pyx: subword_indices", "src/finalfusion/subword/explicit_indexer.pyx: subword_indices", "src/finalfusion/subword/ngrams.pyx: ngrams"]}
{"id": "C88", "title": "exports that are cut short are not loaded as something else", "statement": "If writing an export is interrupted, so that only the beginning of the file exists, then loading it either raises an exception or gives what loading the complete file gives.", "quantifier": "every embeddings that can be exported, every prefix of the file, strictly or lossily decoded, for write_fasttext, write_word2vec, write_text and write_text_dims with every separator of whitespace (finalfusion files are C08)", "why_tests_cant": "an interrupted program leaves any number of bytes of the file, also parts of numbers and characters; tests load complete files", "anchors": ["src/finalfusion/compat/fasttext.py: load_fasttext, write_fasttext, _read_ft_storage", "src/finalfusion/compat/word2vec.py: load_word2vec, write_word2vec", "src/finalfusion/compat/text.py: load_text, load_text_dims, _load_text, write_text, write_text_dims, _write_text"]}
{"id": "C89", "title": "loading takes a number of steps in proportion to the file", "statement": "Loading a file, or rejecting it, takes no more rounds of the loops of the library than a small multiple of the bytes of the file, so that a small file cannot keep the program busy.", "quantifier": "every file, strictly or lossily decoded, mapped or not, for load_finalfusion, load_vocab, load_storage, load_metadata, load_norms, load_word2vec, load_text, load_text_dims and load_fasttext", "why_tests_cant": "loops run as often as the file says, and over all n-grams of a word; tests load small files whose counts are right", "anchors": ["src/finalfusion/embeddings.py: load_finalfusion", "src/finalfusion/io.py: find_chunk", "src/finalfusion/vocab/vocab.py: _read_items, _read_items_with_indices, load_vocab", "src/finalfusion/compat/word2vec.py: load_word2vec", "src/finalfusion/compat/text.py: load_text, load_text_dims, _load_text", "src/finalfusion/compat/fasttext.py: load_fasttext, _read_ft_vocab, _precompute_word_vecs", "src/finalfusion/subword/hash_indexers.pyx: FastTextIndexer.subword_indices, ft_hash_ngram"]}
{"id": "C90", "title": "the tools do not depend on the locale", "statement": "ffp-similar, ffp-analogy and ffp-select understand the same query file or word list, with the same embeddings, in the same way in every locale, and print the same answers.", "quantifier": "every pair of locales whose encoding is UTF-8 or has one byte per character, every query file and word list, every file with embeddings, all options, whatever the pieces in which files are read", "why_tests_cant": "tests run in the locale of the test machine; another locale decodes the same bytes without an error and finds other words", "anchors": ["src/finalfusion/scripts/similar.py: main", "src/finalfusion/scripts/analogy.py: main", "src/finalfusion/scripts/select.py: main"]}
{"id": "C91", "title": "loaders of other formats raise a documented kind of error", "statement": "Loading a malformed fastText, word2vec or text file raises ValueError (UnicodeDecodeError is one), EOFError, NotImplementedError or FinalfusionFormatError, and no exception of another kind, such as an IndexError from within.", "quantifier": "every byte string, strictly or lossily decoded, for load_word2vec, load_text, load_text_dims and load_fasttext", "why_tests_cant": "a malformed file can fail at any of its numbers and texts; tests try a file or two, and none that is wrong in an unusual place", "anchors": ["src/finalfusion/compat/word2vec.py: load_word2vec", "src/finalfusion/compat/text.py: load_text, load_text_dims, _load_text", "src/finalfusion/compat/fasttext.py: load_fasttext, _read_ft_cfg, _read_ft_vocab, _read_ft_storage, _precompute_word_vecs", "src/finalfusion/vocab/vocab.py: _validate_items_and_create_index"]}
{"id": "C92", "title": "text that was read from files can be encoded again", "statement": "Words and n-grams that come out of a file, in any format, strictly or lossily decoded, can be looked up, exported in every format, converted to an explicit vocabulary and printed in UTF-8 without a UnicodeEncodeError; none of the tools ends with one.", "quantifier": "every byte string as embeddings, query file or word list, all pairs of formats, all options, locales with UTF-8 (others are C90), whatever the pieces in which text files are read, if the toml package writes text without surrogates", "why_tests_cant": "decoders, line splitting, stripping and n-grams are involved, and damaged files are decoded with replacements; tests use a few words", "anchors": ["src/finalfusion/vocab/vocab.py: _read_items, _read_items_with_indices, _write_words_binary", "src/finalfusion/vocab/subword.py: write_chunk, to_explicit", "src/finalfusion/compat/word2vec.py: load_word2vec, write_word2vec", "src/finalfusion/compat/text.py: load_text, load_text_dims, write_text, write_text_dims", "src/finalfusion/compat/fasttext.py: load_fasttext, write_fasttext", "src/finalfusion/embeddings.py: load_finalfusion, write, bucket_to_explicit, embedding, __getitem__", "src/finalfusion/scripts/convert.py: main", "src/finalfusion/scripts/bucket_to_explicit.py: main", "src/finalfusion/scripts/select.py: main", "src/finalfusion/scripts/similar.py: main", "src/finalfusion/scripts/analogy.py: main"]}
{"id": "C93", "title": "the order of the words does not matter", "statement": "If the words of embeddings come in another order, each with its row and norm, then every string has the same vector and norm, and embedding_similarity, word_similarity and analogy raise the same exception or give the same answers: the similarities at every position are equal, and words that are more similar than another answer are in both; if no two words are equally similar, the answers are identical.  Removing words does not improve any answer, and does not change the answers if all of them remain.", "quantifier": "every embeddings with n-gram indices that are not negative (all that are loaded, or have hashed n-grams) and every permutation of their words, every query, k and skip set without NaN similarities, every admissible argpartition and heap; lookups with both kinds of storage, queries with NdArray", "why_tests_cant": "the property relates pairs of embeddings; permutations and ties are too many to enumerate", "anchors": ["src/finalfusion/embeddings.py: embedding, __getitem__, embedding_with_norm, embedding_similarity, word_similarity, analogy, _similarity, _embedding", "src/finalfusion/vocab/vocab.py: idx, __getitem__", "src/finalfusion/vocab/subword.py: idx, __getitem__, subword_indices"]}
{"id": "C94", "title": "a selection answers as its source does among the selected words", "statement": "For a selection of words that the source can represent, the answers of similarity queries are nearest neighbours among the selected words, by the vectors that the source has for them.  If the words are all in the vocabulary of the source, word_similarity and analogy on the selection answer with the first k entries of the complete ranking by the source that are among the selected words, up to the order and choice of equally similar words.  The same holds from file to file for ffp-select.  Norms are not selected: embedding_with_norm raises TypeError for every word of a selection.", "quantifier": "every source (of any storage for the nearest neighbours, NdArray for the rankings), list of words, query, k and skip set without NaN similarities, every admissible argpartition and heap, every order of the set of words, every word list file", "why_tests_cant": "the property relates two embeddings and two queries; which words tie and how sets are ordered cannot be enumerated", "anchors": ["src/finalfusion/scripts/select.py: main", "src/finalfusion/embeddings.py: embedding_similarity, word_similarity, analogy, _similarity, embedding_with_norm"]}
{"id": "C95", "title": "damage to a number in a file changes that number only", "statement": "If some of the four bytes of a number of the matrix, of the norms, or of the centroids, the norms or the projection of a quantized matrix of a loadable finalfusion file, or the byte of a code, are replaced, the file still loads, with another number in that place and everything else unchanged; replacing one byte anywhere in the matrix changes exactly one number, and the vectors of all other words stay as they are.  There are no checksums: such damage is not noticed, and a damaged code may raise IndexError only when the vector is looked up.", "quantifier": "every byte string that loads, every position of a number, every replacement, mapped and not mapped, any arithmetic for the lookups", "why_tests_cant": "the files, positions and replacements are far too many to try", "anchors": ["src/finalfusion/embeddings.py: load_finalfusion", "src/finalfusion/storage/ndarray.py: read_chunk, mmap_chunk", "src/finalfusion/norms.py: read_chunk", "src/finalfusion/storage/quantized.py: read_chunk, mmap_chunk"]}
{"id": "C96", "title": "answers to different queries agree with one another", "statement": "Asking for more answers extends the answers: the first k answers for a larger number are the answers for k.  Skipping words is leaving them out of the answers: the first k answers that are not skipped are the answers of the query with the skip set; in particular word_similarity is embedding_similarity of the vector of the word without the word, and analogy is analogy with an empty skip set without the three words.  Two words that are among the answers for one another have the same similarity both times.  All this is up to the order and choice of equally similar words.", "quantifier": "every embeddings with an NdArray, query, numbers of answers within the vocabulary and skip sets without NaN similarities, every admissible argpartition and heap, different ones for the two queries", "why_tests_cant": "the property relates two queries for all numbers of answers and skip sets; which words tie cannot be enumerated", "anchors": ["src/finalfusion/embeddings.py: _similarity, embedding_similarity, word_similarity, analogy"]}
{"id": "C97", "title": "what follows a file does not change what was in it", "statement": "If bytes are appended to a finalfusion file that loads and the result loads, then with the same metadata, vocabulary, storage and norms; only a file without norms may get norms.  After a file written with norms anything may follow; a file without norms followed by another file does not load.  Anything may follow a word2vec file and a fastText file, and any text a text file with dimensions.  Two text files without dimensions one after the other, the first of which ends with a line feed, load exactly if they have no word in common, as the words and vectors of the first and then of the second.", "quantifier": "every file that loads (for word2vec: that was written; for fastText: of the supported layout), all bytes after it, strict and lossy", "why_tests_cant": "what follows is arbitrary; tests append a few bytes to a few files, and the files that only load because their end is missing are easily overlooked", "anchors": ["src/finalfusion/embeddings.py: load_finalfusion", "src/finalfusion/compat/word2vec.py: load_word2vec", "src/finalfusion/compat/fasttext.py: load_fasttext", "src/finalfusion/compat/text.py: load_text, load_text_dims"]}
{"id": "C98", "title": "saved and converted embeddings answer as the original", "statement": "Embeddings that are written and loaded again, mapped or not, or converted to finalfusion by ffp-convert, give the same outcome, value or exception, for every lookup, norm, similarity query and analogy, and (written and loaded) for every export, selection and conversion.  bucket_to_explicit keeps the outcome of embedding_similarity for every vector, and of every lookup, word_similarity and analogy for known words and for strings whose n-grams all are n-grams of known words; quantized embeddings, which cannot be queried, can be after the conversion, and the answers are nearest neighbours by the original vectors.  The same holds from file to file for ffp-bucket-to-explicit.", "quantifier": "every embeddings that can be written or converted, every query, k, skip set and behaviour of argpartition and heap (any admissible one for the nearest neighbours of quantized embeddings), every file", "why_tests_cant": "tests compare matrices and a few words after a round trip; that no query can tell the two apart is about all queries, and the order of the explicit index does change", "anchors": ["src/finalfusion/embeddings.py: write, load_finalfusion, bucket_to_explicit, embedding, embedding_with_norm, word_similarity, analogy, embedding_similarity", "src/finalfusion/scripts/bucket_to_explicit.py: main", "src/finalfusion/scripts/convert.py: main"]}
{"id": "C99", "title": "answers depend on the directions of the vectors only", "statement": "Multiplying the vectors of a word2vec or text file by a positive number each, or all rows of a fastText file by the same positive number, changes no lookup, similarity query or analogy after loading, not even for unknown words, and multiplies the norms by these numbers.  word_similarity answers with the k other words whose vectors in the file have the largest cosine with that of the word, best first, with these cosines; analogy answers with those that have the largest cosine with c + (b - a), taken from the directions of the three vectors.  All are between -1 and 1.", "quantifier": "every file, positive factors, query, k, skip set and admissible argpartition and heap, over exact arithmetic; no zero vectors for the cosines", "why_tests_cant": "a test rescales one file by one factor, and in floats cannot tell rounding from an error", "anchors": ["src/finalfusion/embeddings.py: word_similarity, analogy, embedding_similarity, _similarity, embedding, embedding_with_norm", "src/finalfusion/compat/word2vec.py: load_word2vec", "src/finalfusion/compat/text.py: load_text, load_text_dims", "src/finalfusion/compat/fasttext.py: load_fasttext"]}
{"id": "C100", "title": "exported embeddings answer as the original", "statement": "Embeddings whose rows have length one and whose norms are positive, as loaded from any format without zero vectors, can be written as word2vec or text and loaded again: the words, their vectors and norms, every similarity query for a vector or a word and every analogy of words have the same outcome as before, and strings that are not words are unknown.  Written as fastText and loaded again, no query can tell them apart, not even for unknown words.", "quantifier": "every embeddings with representable exported numbers and words the format can hold, every query, k, skip set and behaviour of argpartition and heap, over exact arithmetic", "why_tests_cant": "tests compare the matrices of one file approximately; that the answers survive is about all queries", "anchors": ["src/finalfusion/compat/word2vec.py: load_word2vec, write_word2vec", "src/finalfusion/compat/text.py: load_text, load_text_dims, write_text, write_text_dims", "src/finalfusion/compat/fasttext.py: load_fasttext, write_fasttext", "src/finalfusion/embeddings.py: embedding, embedding_with_norm, word_similarity, analogy, embedding_similarity"]}
{"id": "C101", "title": "analogies are right up to rounding", "statement": "In rounded arithmetic, analogy on loaded embeddings scores words by the cosine between their vector in the file and c + (b - a), for the vectors of the three words in the file scaled to length one, up to an explicit error that grows as this target gets short; no word that is left out is better than an answer by more than twice that.  In float32 and up to 1024 dimensions the error is at most 1.3e-4 + 6.2e-4 / (length of the target).", "quantifier": "every arithmetic whose operations have a relative error of at most u, every order of summation, every loaded embeddings, words, k and skip set", "why_tests_cant": "tests compare a few answers on one file with tolerances; an error bound is about all vectors", "anchors": ["src/finalfusion/embeddings.py: analogy, _similarity, embedding", "src/finalfusion/compat/word2vec.py: load_word2vec"]}
{"id": "C102", "title": "analogies in float32 arithmetic", "statement": "With IEEE 754 binary32 operations, if the vectors of the file have lengths in the range of float32 and the target c + (b - a) of the three vectors scaled to length one is not shorter than 5 (n + 8) 2^-24, analogy answers without NaN or infinity: every score is the cosine between the vector in the file and this exact target up to (3 n + 16) 2^-24 + 8 (n + 8) 2^-24 / (length of the target), and no word that is left out is better than an answer by more than twice that.", "quantifier": "every order of summation, every embeddings with at most 2^20 dimensions whose rows are normalised vectors, every words, k and skip set; subnormal components and underflow in the divisions included", "why_tests_cant": "tests compare a few answers on one file with tolerances; underflow and overflow happen at rare values", "anchors": ["src/finalfusion/embeddings.py: analogy, _similarity, embedding", "src/finalfusion/compat/word2vec.py: load_word2vec"]}
{"id": "C103", "title": "damage to a word in a file", "statement": "On any finalfusion file that loads, other bytes in the place of a word have exactly one of three effects: if they are the UTF-8 encoding of a text that is not another word, the file loads with this text in the place of the word and everything else as before, so the new text has the vector of the old word and all other texts are answered as before; if the text is another word, loading fails with an AssertionError; if the bytes are not UTF-8, loading fails with a UnicodeDecodeError.", "quantifier": "every file that loads (all vocabulary kinds, with or without metadata and norms, memory mapped or not), every word and every replacement of its bytes", "why_tests_cant": "tests have no damaged files; the claim is about every file and every replacement", "anchors": ["src/finalfusion/vocab/vocab.py: _read_items, _validate_items_and_create_index", "src/finalfusion/embeddings.py: load_finalfusion"]}
{"id": "C104", "title": "what in a file load_finalfusion does not look at", "statement": "The result of load_finalfusion does not depend on the list of chunks in the header (only on their number), on the announced lengths of the chunks of vocabulary, storage and norms, and on the padding before float arrays: on any file that loads, other bytes in these places give the same embeddings. The loaders of single parts do depend on the lengths, so the two can disagree.", "quantifier": "every file that loads, memory mapped or not; any number of other bytes in any of these places", "why_tests_cant": "tests only load files that were written correctly", "anchors": ["src/finalfusion/embeddings.py: load_finalfusion", "src/finalfusion/io.py: Header.read_chunk, find_chunk, _read_chunk_header", "src/finalfusion/storage/ndarray.py: read_chunk", "src/finalfusion/storage/quantized.py: read_chunk", "src/finalfusion/norms.py: read_chunk"]}
{"id": "C105", "title": "damage to a vector in a word2vec file", "statement": "On any word2vec file that loads, other bytes in the place of the vector of a word are loaded as another vector of this word with its norm; the words, the other vectors and the other norms are as before, so all other lookups give the same result.  If the file is cut off inside its last vector, the bytes of its only component stand for the whole vector.", "quantifier": "every byte string that loads, lossy or not, every word, every replacement of any of the bytes of its vector, any arithmetic", "why_tests_cant": "the files and replacements are far too many to try", "anchors": ["src/finalfusion/compat/word2vec.py: load_word2vec, _read_binary_word", "src/finalfusion/_util.py: _normalize_matrix"]}
{"id": "C106", "title": "damage to a row of a fastText file", "statement": "On any fastText file that loads, other bytes in the place of a row of the matrix are loaded as another row; the vocabulary and the metadata are as before, and so are vector and norm of every word, known or unknown, that is not the word of this row and has no n-gram with this row.  The row of a word is used for this word only; a row of a bucket may be used for many words.", "quantifier": "every byte string below 2^63 bytes that loads, lossy or not, every row, every replacement of any of its bytes, every word without surrogates, any arithmetic", "why_tests_cant": "the files, replacements and words are far too many to try", "anchors": ["src/finalfusion/compat/fasttext.py: load_fasttext, _read_ft_storage", "src/finalfusion/embeddings.py: embedding, embedding_with_norm"]}
{"id": "C107", "title": "damage to a word in a fastText file", "statement": "On any fastText file that loads, take other bytes, none of them zero, in the place of a word: if they stand for a text that is not one of the other words, the file loads with this text as the word, and vectors and norms of all other words, known or unknown, are as before; if the text is one of the other words, loading fails with an AssertionError; if the bytes are not a text, loading fails with a UnicodeDecodeError.  The vector of the damaged word is computed from the n-grams of the new word and is not kept.", "quantifier": "every byte string below 2^63 bytes that loads, lossy or not, every word, every replacement of its bytes by bytes that are not zero, every other word without surrogates, any arithmetic", "why_tests_cant": "the files, replacements and words are far too many to try", "anchors": ["src/finalfusion/compat/fasttext.py: load_fasttext, _read_ft_vocab, _read_binary_word", "src/finalfusion/embeddings.py: embedding, embedding_with_norm"]}
{"id": "C108", "title": "damage to a word in a word2vec file", "statement": "On any word2vec file that loads, take other bytes, none of them a space, in the place of a word and the whitespace around it: the file loads if and only if they stand for a word that is not one of the other words, and then this word takes the place of the old one and its vector; all vectors, norms and other words are as before.  If the word is one of the others, loading fails with an AssertionError, and if the bytes are not a text, with a UnicodeDecodeError.", "quantifier": "every byte string that loads, lossy or not, every word, every replacement of its bytes by bytes that are not spaces, any arithmetic", "why_tests_cant": "the files and replacements are far too many to try", "anchors": ["src/finalfusion/compat/word2vec.py: load_word2vec, _read_binary_word", "src/finalfusion/embeddings.py: embedding"]}
{"id": "C109", "title": "damage to the lengths of n-grams in a file", "statement": "On any finalfusion file with subwords that loads, take other numbers in the place of the lengths of n-grams (min_n and max_n): the file loads if 0 < min_n <= max_n, and otherwise loading fails with an AssertionError.  If it loads, words, buckets, matrix, norms and metadata are as before, and so are the vectors and norms of all words of the vocabulary; vectors of unknown words are not kept.", "quantifier": "every byte string below 2^63 - 4 bytes that loads, memory-mapped or not, all three kinds of subword vocabularies, every pair of 32-bit numbers", "why_tests_cant": "the files and replacements are far too many to try", "anchors": ["src/finalfusion/vocab/subword.py: read_chunk", "src/finalfusion/embeddings.py: load_finalfusion, embedding, embedding_with_norm", "src/finalfusion/subword/hash_indexers.pyx: __init__"]}
{"id": "C110", "title": "damage to the number of buckets in a file", "statement": "On any finalfusion file with buckets that loads, any other number in the place of the number of buckets (fastText vocabularies) or of its exponent (bucket vocabularies) makes loading fail with an AssertionError.", "quantifier": "every byte string below 2^63 - 4 bytes that loads, memory-mapped or not, both kinds of vocabularies with buckets, every replacement of the four bytes", "why_tests_cant": "the files and replacements are far too many to try", "anchors": ["src/finalfusion/vocab/subword.py: read_chunk", "src/finalfusion/embeddings.py: load_finalfusion, _check_requirements", "src/finalfusion/subword/hash_indexers.pyx: __init__, upper_bound"]}
{"id": "C111", "title": "files of another kind or version, and damaged chunk identifiers", "statement": "Every function that loads embeddings or a part of them fails with a FinalfusionFormatError on anything that does not begin with the magic number and version 0. On any file that load_finalfusion loads, other bytes in the place of the identifier of the norms make it fail with a FinalfusionFormatError, or a ValueError if there is no such chunk. So do other bytes in the place of the other identifiers, unless they name a chunk that may stand there too. The two kinds of vocabularies with buckets are not mistaken for one another.", "quantifier": "every byte string; for identifiers every byte string below 2^63 - 4 bytes that loads, memory-mapped or not, every replacement of the four bytes", "why_tests_cant": "the files and replacements are far too many to try", "anchors": ["src/finalfusion/io.py: Header.read_chunk, find_chunk, _read_chunk_header", "src/finalfusion/embeddings.py: load_finalfusion"]}
{"id": "C112", "title": "damage to the number of rows and to types in a file", "statement": "On any finalfusion file that loads, any other bytes in the place of the number of rows of the matrix, of the type or types of its numbers, or of the type of the norms make loading fail.", "quantifier": "every byte string below 2^63 - 4 bytes that loads, memory-mapped or not, both kinds of matrices, every replacement of the bytes of the field", "why_tests_cant": "the files and replacements are far too many to try", "anchors": ["src/finalfusion/embeddings.py: load_finalfusion, _check_requirements", "src/finalfusion/storage/ndarray.py: read_chunk", "src/finalfusion/storage/quantized.py: read_chunk, _read_quantized_header", "src/finalfusion/norms.py: read_chunk"]}
{"id": "C113", "title": "damage to an n-gram in a file", "statement": "On any finalfusion file with an explicit vocabulary that loads, other bytes in the place of an n-gram give the same embeddings with that n-gram replaced, if they are the UTF-8 encoding of a text that is not one of the other n-grams. The new n-gram has the index of the old one, other texts have the index they had, and words of the vocabulary keep their vectors and norms. A second occurrence of an n-gram is an AssertionError, bytes that are not UTF-8 are a UnicodeDecodeError.", "quantifier": "every byte string below 2^63 - 4 bytes that loads, memory-mapped or not, every n-gram, every replacement of its bytes", "why_tests_cant": "the files and replacements are far too many to try", "anchors": ["src/finalfusion/vocab/subword.py: ExplicitVocab.read_chunk", "src/finalfusion/subword/explicit_indexer.pyx: __init__, __call__", "src/finalfusion/embeddings.py: load_finalfusion"]}
{"id": "C114", "title": "damage to the index of an n-gram in a file", "statement": "On any finalfusion file with an explicit vocabulary that loads, another number in the place of the index of an n-gram gives the same embeddings with this index for the n-gram, if the indices of the n-grams still are exactly the numbers below the bound of the indexer. Otherwise loading fails with an AssertionError; this is so for any other number in the place of an index that only one n-gram has. Other texts have the index they had.", "quantifier": "every byte string below 2^63 - 4 bytes that loads, memory-mapped or not, every n-gram, every other index below 2^64", "why_tests_cant": "the files and replacements are far too many to try", "anchors": ["src/finalfusion/vocab/subword.py: ExplicitVocab.read_chunk", "src/finalfusion/subword/explicit_indexer.pyx: __init__", "src/finalfusion/embeddings.py: load_finalfusion, __init__"]}
