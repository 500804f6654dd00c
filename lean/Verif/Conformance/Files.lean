import Verif.Conformance.Data
import Verif.Model.Container
import Verif.Model.Scripts
import Verif.Model.FloatText
import Verif.Spec.Sel
import Verif.Spec.TextIO
/-!
# The model on the repository's own files
What `/repo/tests` expects of the files in `/repo/tests/data`, evaluated in the model with binary32
arithmetic and the decimal texts of `Verif.Model.FloatText`.  These are checks of the model, not proofs of
properties: `#guard` evaluates, it does not go through the kernel.
-/

namespace FF.Conformance

attribute [local instance] b32Ops b32Text

/-- Files are read in blocks of 8192 bytes (`io.DEFAULT_BUFFER_SIZE`). -/
local instance : TextIO := Sample.blockIO 8191

/-- Metadata as its text -/
def toml : Toml where
  dumps m := match m with
    | [([], .str s)] => .ok s
    | _ => .ok []
  loads s := .ok [([], .str s)]

def sel : Sel F32 := @Sel.sorting F32 b32Score ⟨0⟩

def uni (s : String) : PyStr := s.toList.map fun c => toCode c.toNat

def load (f : Format) (bs : Bytes) (lossy mmap : Bool := false) : Res (Embeddings F32) :=
  f.load toml lossy mmap bs

/-- The embeddings written in a format and loaded again -/
def rewrite (f : Format) (e : Embeddings F32) : Res (Embeddings F32) :=
  match (f.writer toml e).file with
  | (.ok (), bs) => load f bs
  | (.error x, _) => .error x

/-- Both loaded, and related -/
def both {α β : Type} (r : α → β → Bool) : Res α → Res β → Bool
  | .ok a, .ok b => r a b
  | _, _ => false

def holds {α : Type} (p : α → Bool) : Res α → Bool
  | .ok a => p a
  | .error _ => false

/-- `abs(a - b) <= n / 10^8` -/
def near (n : Nat) (a b : F32) : Bool :=
  B32.isFin a && B32.isFin b && (B32.int a - B32.int b).natAbs * 10 ^ 8 ≤ n * 2 ^ 149

def nearRow (n : Nat) (a b : List F32) : Bool := a.length == b.length && (a.zip b).all fun p => near n p.1 p.2

def nearRows (n : Nat) (a b : List (List F32)) : Bool :=
  a.length == b.length && (a.zip b).all fun p => nearRow n p.1 p.2

/-- `np.allclose(a.storage, b.storage)` within `n / 10^8` -/
def nearStorage (n : Nat) (a b : Storage F32) : Bool := both (nearRows n) a.iter b.iter

def nearNorms (n : Nat) (a b : Embeddings F32) : Bool :=
  match a.norms, b.norms with
  | some x, some y => nearRow n x y
  | none, none => true
  | _, _ => false

/-- integration/conversion.py `cmp_simple_embeds` and `cmp_subword_embeds` -/
def same (a b : Embeddings F32) : Bool :=
  a.vocab.pyEq b.vocab && nearStorage 1000 a.storage b.storage && nearNorms 1000 a b

/-- integration/conversion.py `cmp_subword_embeds_to_simple` -/
def sameWords (a b : Embeddings F32) : Bool :=
  a.vocab.words == b.vocab.words && a.vocab.index == b.vocab.index &&
    holds (nearStorage 1000 · b.storage) (a.storage.slice (.upTo a.vocab.len)) && nearNorms 1000 a b

def shape (e : Embeddings F32) : Nat × Nat := (e.storage.nRows, e.storage.nCols)

/-! ### The four small files -/

def small : List (Format × Bytes) :=
  [(.finalfusion, embeddingsFifu), (.text, embeddingsTxt), (.textdims, embeddingsDimsTxt), (.word2vec, embeddingsW2v)]

/-- test_embeddings.py `test_embeddings`: all formats have the same words and the same vectors -/
def agree (r : Format × Bytes) : Bool :=
  both (fun a b => a.vocab.pyEq b.vocab && nearStorage 10 a.storage b.storage)
    (load .finalfusion embeddingsFifu) (load r.1 r.2)

#guard holds (fun e => shape e == (7, 10)) (load .finalfusion embeddingsFifu)
#guard small.all agree

/-- The vectors from the text file are the ones in the finalfusion file, bit for bit, and so are the norms. -/
def exact (f : Format) (bs : Bytes) : Bool :=
  both (fun a b => a.storage == b.storage && a.norms == b.norms) (load .finalfusion embeddingsFifu) (load f bs)

#guard exact .text embeddingsTxt
#guard exact .textdims embeddingsDimsTxt

/-- test_embeddings.py:14-17 -/
def testNorms : List PyStr :=
  ["6.557438373565674", "8.83176040649414", "6.164413928985596", "9.165151596069336", "7.4833149909973145",
    "7.211102485656738", "7.4833149909973145"].map uni

#guard holds (fun e => e.norms.map (·.map .ok) == some (testNorms.map b32Text.parse))
  (load .finalfusion embeddingsFifu)
#guard holds (fun ns => ns.map .ok == testNorms.map b32Text.parse) (Rd.run loadNorms embeddingsFifu)
#guard holds (fun l => l.map (·.1) == ["one", "two", "three", "four", "five", "six", "seven"].map uni &&
    l.map (fun t => t.2.2.map .ok) == testNorms.map fun s => some (b32Text.parse s))
  (load .finalfusion embeddingsFifu >>= Embeddings.iter)

/-- integration/conversion.sh, `verify_all_conversions` -/
def conversions (r : Format × Bytes) : Bool :=
  holds (fun e => [Format.finalfusion, .word2vec, .text, .textdims].all fun f => holds (same e) (rewrite f e))
    (load r.1 r.2)

#guard small.all conversions

/-- The word2vec file written is the word2vec file read. -/
def w2vAgain : Bool :=
  holds (fun e => (writeWord2vec e).file == (.ok (), embeddingsW2v)) (load .word2vec embeddingsW2v)

#guard w2vAgain

#guard load .finalfusion embeddingsFifu >>= (·.getItem (uni "foo")) matches .error .keyError
#guard load .finalfusion embeddingsFifu >>= (·.embedding (uni "OOV")) matches .ok none
#guard load .finalfusion embeddingsFifu >>= (·.embeddingWithNorm (uni "OOV")) matches .ok none

/-! ### test_lossy.py -/

def lossyWords (r : Format × Bytes) : Bool :=
  holds (fun e => e.vocab.words == ["meren", "zee�n", "rivieren"].map uni) (load r.1 r.2 true) &&
    (match load r.1 r.2 with
    | .error .unicodeDecodeError => true
    | _ => false)

#guard [(Format.text, utf8Txt), (.textdims, utf8Dims), (.word2vec, utf8Bin)].all lossyWords

/-! ### test_similarity.py, integration/similarity.sh -/

def stuttgart : List PyStr :=
  ["Karlsruhe", "Mannheim", "München", "Darmstadt", "Heidelberg", "Wiesbaden", "Kassel", "Düsseldorf", "Leipzig",
    "Berlin"].map uni

def berlin : List PyStr :=
  ["Potsdam", "Hamburg", "Leipzig", "Dresden", "München", "Düsseldorf", "Bonn", "Stuttgart", "Weimar",
    "Berlin-Charlottenburg", "Rostock", "Karlsruhe", "Chemnitz", "Breslau", "Wiesbaden", "Hannover", "Mannheim",
    "Kassel", "Köln", "Danzig", "Erfurt", "Dessau", "Bremen", "Charlottenburg", "Magdeburg", "Neuruppin",
    "Darmstadt", "Jena", "Wien", "Heidelberg", "Dortmund", "Stettin", "Schwerin", "Neubrandenburg", "Greifswald",
    "Göttingen", "Braunschweig", "Berliner", "Warschau", "Berlin-Spandau"].map uni

def wordsOf (r : Res (Option (List (PyStr × F32)))) : List PyStr :=
  match r with
  | .ok (some l) => l.map (·.1)
  | _ => []

#guard wordsOf (load .finalfusion similarityFifu >>= (·.wordSimilarity sel (uni "Berlin") 40)) == berlin
#guard wordsOf (load .finalfusion similarityFifu >>= (·.wordSimilarity sel (uni "Stuttgart") 10)) == stuttgart

/-- test_similarity.py `test_embedding_similarity_stuttgart_10` -/
def nearVector (k : Int) (skips : List PyStr) : Res (Option (List (PyStr × F32))) := do
  let e ← load .finalfusion similarityFifu
  let q ← e.getItem (uni "Stuttgart")
  return some (← e.embeddingSimilarity sel q k (some skips))

#guard wordsOf (nearVector 10 []) == uni "Stuttgart" :: stuttgart.take 9
#guard wordsOf (nearVector 10 [uni "Stuttgart"]) == stuttgart
#guard load .finalfusion similarityFifu >>= (·.embeddingSimilarity sel [B32.ofNat 1] 10 none) matches
  .error .valueError

/-- `cut -f 1 -d " "` -/
def cut (s : PyStr) : List PyStr := (s.splitOn 10).dropLast.map (·.takeWhile (· ≠ 32))

def fs : FS := fun p =>
  if p = uni "similarity" then some similarityFifu
  else if p = uni "analogy" then some simpleVocabFifu
  else if p = uni "buckets" then some ffBucketsFifu
  else if p = uni "small" then some embeddingsFifu
  else (encode p).toOption.map (· ++ [10])

#guard cut (similarMain toml sel .finalfusion (uni "similarity") (uni "Stuttgart") 10 false false fs).stdout == stuttgart
#guard cut (similarMain toml sel .finalfusion (uni "similarity") (uni "Berlin") 40 false true fs).stdout == berlin

/-! ### test_analogies.py, integration/analogy.sh -/

def deutschland : List PyStr :=
  ["Deutschland", "Westdeutschland", "Sachsen", "Mitteldeutschland", "Brandenburg", "Polen", "Norddeutschland",
    "Dänemark", "Schleswig-Holstein", "Österreich", "Bayern", "Thüringen", "Bundesrepublik", "Ostdeutschland",
    "Preußen", "Deutschen", "Hessen", "Potsdam", "Mecklenburg", "Niedersachsen", "Hamburg", "Süddeutschland",
    "Bremen", "Russland", "Deutschlands", "BRD", "Litauen", "Mecklenburg-Vorpommern", "DDR", "West-Berlin",
    "Saarland", "Lettland", "Hannover", "Rostock", "Sachsen-Anhalt", "Pommern", "Schweden", "Deutsche", "deutschen",
    "Westfalen"].map uni

def analogy (a b c : String) (k : Int) (skip : Option (List String) := none) :
    Res (Option (List (PyStr × F32))) := do
  let e ← load .finalfusion simpleVocabFifu
  e.analogy sel (uni a) (uni b) (uni c) k (skip.map (·.map uni))

#guard wordsOf (analogy "Paris" "Frankreich" "Berlin" 40) == deutschland
#guard wordsOf (analogy "Paris" "Frankreich" "Paris" 1 (some ["Paris"])) == [uni "Frankreich"]
#guard wordsOf (analogy "Paris" "Frankreich" "Paris" 1) != [uni "Frankreich"]
#guard wordsOf (analogy "Frankreich" "Frankreich" "Frankreich" 1 (some [])) == [uni "Frankreich"]
#guard wordsOf (analogy "Frankreich" "Frankreich" "Frankreich" 1 (some ["Frankreich"])) != [uni "Frankreich"]
#guard analogy "Paris" "OOV" "Paris" 1 matches .ok none

def analogyTool (queries : String) (k : Int) (includes : List String) : List PyStr :=
  cut (analogyMain toml sel .finalfusion (uni "analogy") (uni queries) k (includes.map uni) false false fs).stdout

#guard analogyTool "Paris Frankreich Berlin" 40 [] == deutschland
#guard analogyTool "Paris Frankreich Paris" 1 ["a", "b", "c"] == [uni "Frankreich"]
#guard analogyTool "Paris Frankreich Paris" 1 ["a", "c"] == [uni "Russland"]
#guard analogyTool "Frankreich Frankreich Frankreich" 1 ["a", "b", "c"] == [uni "Frankreich"]
#guard analogyTool "Frankreich Frankreich Frankreich" 1 [] == [uni "Russland"]

/-! ### The quantized file: test_embeddings.py, test_storage.py -/

/-- `atol=0.03` for one word, `atol=0.05` for the storage -/
def quantized (mmap : Bool) : Bool :=
  both (fun q c => both (fun a b => a.isSome && nearRow 3000000 (a.getD []) (b.getD []))
      (q.embedding (uni "Berlin")) (c.embedding (uni "Berlin")) && nearStorage 5000000 q.storage c.storage)
    (load .finalfusion pqFifu false mmap) (load .finalfusion pqCheckFifu)

#guard quantized false
#guard quantized true

/-- The file written is the file read. -/
def pqAgain : Bool :=
  holds (fun e => (e.write toml).file == (.ok (), pqFifu)) (load .finalfusion pqFifu)

#guard pqAgain
#guard both (fun s e => nearStorage 0 s e.storage) (Rd.run (loadQuantizedArray true) pqFifu) (load .finalfusion pqFifu)

/-! ### The file with buckets: test_embeddings.py, test_vocab.py, test_metadata.py -/

#guard holds (fun e => shape e == (1026, 5) && e.vocab.upperBound == 1026 && e.vocab.words == ["one", "</s>"].map uni)
  (load .finalfusion ffBucketsFifu)
#guard load .finalfusion ffBucketsFifu >>= (·.embedding (uni "")) matches .ok none

/-- test_vocab.py `test_ff_buckets_lookup` -/
def tuebingen : Bool :=
  match Rd.run loadVocab ffBucketsFifu >>= (·.idx (uni "tübingen")) with
  | .ok (some (.many is)) => is.insertionSort (· ≤ ·) ==
      [14, 69, 74, 124, 168, 181, 197, 246, 250, 276, 300, 308, 325, 416, 549, 590, 648, 651, 707, 717, 761, 817,
        820, 857, 860, 1007]
  | _ => false

#guard tuebingen

/-- test_embeddings.py `test_buckets_to_explicit`, integration/bucket_to_explicit.py: the same words with the same
vectors, and as many rows as there are words and distinct buckets -/
def explicit (e : Embeddings F32) (rows : Nat) : Bool :=
  holds (fun x => x.vocab.words == e.vocab.words && x.storage.nRows == rows && x.vocab.upperBound == (rows : Int) &&
      both (fun a b => a.map (fun t => (t.1, t.2.1)) == b.map fun t => (t.1, t.2.1)) e.iter x.iter &&
      holds (fun y => y.vocab.pyEq x.vocab && y.storage == x.storage && y.norms == x.norms) (rewrite .finalfusion x))
    e.bucketToExplicit

#guard holds (explicit · 18) (load .finalfusion ffBucketsFifu)

#guard holds (fun e => holds (same e) (rewrite .finalfusion e)) (load .finalfusion ffBucketsFifu)
#guard holds (fun e => [Format.word2vec, .text, .textdims].all fun f => holds (sameWords e) (rewrite f e))
  (load .finalfusion ffBucketsFifu)
#guard (load .finalfusion ffBucketsFifu >>= rewrite .fasttext) matches .error .valueError

/-- integration/select.sh -/
def selected (source words : String) (expect : List String) : Bool :=
  match selectMain toml (·.dedup) .finalfusion (uni source) (uni "out") (uni words) false false false fs with
  | (.ok (), fs') =>
    match fs' (uni "out") with
    | some bs => both (fun e s => s.vocab.words == expect.map uni &&
        expect.all fun w => both (nearRow 10) (e.getItem (uni w)) (s.getItem (uni w)))
        (load .finalfusion ((fs (uni source)).getD [])) (load .finalfusion bs)
    | none => false
  | _ => false

#guard selected "buckets" "foo\ndefinitely out of vocab\nsomething else\nasd"
  ["foo", "definitely out of vocab", "something else", "asd"]
#guard selected "small" "one\ntwo" ["one", "two"]

/-! ### The fastText file: test_compat.py, integration/conversion.sh, integration/bucket_to_explicit.sh -/

#guard holds (fun e => [Format.finalfusion, .fasttext].all fun f => holds (same e) (rewrite f e))
  (load .fasttext fasttextBin)
#guard holds (fun e => [Format.word2vec, .text, .textdims].all fun f => holds (sameWords e) (rewrite f e))
  (load .fasttext fasttextBin)

/-- integration/bucket_to_explicit.py: one row for each word and each distinct bucket of its n-grams -/
def fasttextExplicit (e : Embeddings F32) : Bool :=
  match e.vocab.sub with
  | some (.ft ix) =>
    let grams := e.vocab.words.flatMap fun w => ((ngrams w ix.minN ix.maxN true).toOption.getD [])
    let buckets := (grams.filterMap fun g => (ix.call g).toOption).dedup
    explicit e (e.vocab.words.length + buckets.length)
  | _ => false

#guard holds fasttextExplicit (load .fasttext fasttextBin)

/-! ### test_io.py -/

#guard Rd.run readHeader simpleVocabFifu == .ok [ChunkId.simpleVocab.toNat, ChunkId.ndArray.toNat]

/-- test_io.py `test_find_chunk` -/
def finding : Rd Bool := do
  let a ← findChunk [.ndArray]
  let b ← findChunk [.ndArray]
  let c ← findChunk [.simpleVocab]
  let d ← findChunk [.bucketVocab]
  let e ← findChunk [.simpleVocab, .ndArray]
  seekBack 12
  let f ← readChunkHeader
  return a == some .ndArray && b == some .ndArray && c == some .simpleVocab && d == none &&
    e == some .simpleVocab && f.map (·.1) == some .simpleVocab

#guard Rd.run finding simpleVocabFifu == .ok true

/-! ### test_subwords.py, test_vocab.py -/

#guard ngrams (uni "Test") 3 6 true == .ok (["<Test>", "<Test", "<Tes", "<Te", "Test>", "Test", "Tes", "est>", "est",
  "st>"].map uni)
#guard ngrams (uni "实验") 2 6 true == .ok (["<实验>", "<实验", "<实", "实验>", "实验", "验>"].map uni)
#guard ngrams (uni "Test") 3 6 false == .ok (["Test", "Tes", "est"].map uni)
#guard ngrams (uni "Test") 5 6 true == .ok (["<Test>", "<Test", "Test>"].map uni)
#guard ngrams [] 1 6 false == .ok []
#guard ngrams (uni "Test") 10 11 true == .ok []
#guard ngrams (uni "Test") 7 6 true == .error .assertionError
#guard ngrams (uni "Test") 0 6 true == .error .assertionError
#guard ngrams (uni "Test") 3 0 true == .error .assertionError

/-- test_vocab.py `test_bucket_to_explicit` -/
def twoWords : Res Bool := do
  let ix ← FifuIndexer.new 21 3 6
  let v ← Vocab.new (["allerdings", "groß"].map uni) (some (.fifu ix))
  let x ← v.toExplicit
  return match x.sub with
    | some (.expl i) => x.words == v.words && x.upperBound == 45 && i.bound == 43 && i.len == 44 &&
        i.call (uni "dings") == i.call (uni "<gro") && ix.call (uni "dings") == ix.call (uni "<gro")
    | _ => false

#guard twoWords == .ok true

end FF.Conformance
