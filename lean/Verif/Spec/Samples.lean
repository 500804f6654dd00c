import Verif.Spec.Built
/-!
# Small concrete objects
Used in the `example`s that show that the hypotheses of the property theorems can be met.
-/

namespace FF.Sample

/-- A toy codec: dumps to the empty string, loads the empty dictionary. -/
def toml : Toml := ⟨fun _ => .ok [], fun _ => .ok []⟩

/-- words: `a`, `ß` (two UTF-8 bytes), `語` (three bytes) -/
def words : List PyStr := [[97], [0xDF], [0x8A9E]]

def simple : Vocab := ⟨words, enumItems words, none⟩

/-- 2 buckets, n-grams of length 2 and 3 -/
def bucket : Vocab := ⟨words, enumItems words, some (.fifu ⟨1, 2, 3⟩)⟩

/-- 2 buckets, n-grams of length 2 and 3 -/
def ft : Vocab := ⟨words, enumItems words, some (.ft ⟨2, 2, 3⟩)⟩

/-- two n-grams sharing index 0 and one with index 1, not in list order in the dict -/
def explIx : ExplIndexer :=
  ⟨[[60, 97], [97, 62], [60, 0xDF]], 2, 3, [([97, 62], 1), ([60, 97], 0), ([60, 0xDF], 0)], 2⟩

def expl : Vocab := ⟨words, enumItems words, some (.expl explIx)⟩

/-- 3×2 matrix -/
def nd3 : Mat F32 := ⟨2, [[1, 2], [3, 4], [5, 6]]⟩

/-- 5×2 matrix -/
def nd5 : Mat F32 := ⟨2, [[1, 2], [3, 4], [5, 6], [7, 8], [9, 10]]⟩

/-- 5 rows of two codes, two centroids of length one each, with projection and norms -/
def q5 : QArr F32 :=
  ⟨⟨2, 1, [[[11], [12]], [[13], [14]]], some ⟨2, [[1, 0], [0, 1]]⟩⟩, 2,
    [[0, 1], [1, 1], [0, 0], [1, 0], [1, 1]], some [1, 2, 3, 4, 5]⟩

def embSimple : Embeddings F32 := ⟨.nd nd3, simple, some [7, 8, 9], some []⟩
def embBucket : Embeddings F32 := ⟨.nd nd5, bucket, some [7, 8, 9], none⟩
def embFt : Embeddings F32 := ⟨.quant q5, ft, none, some []⟩
def embExpl : Embeddings F32 := ⟨.quant q5, expl, some [7, 8, 9], none⟩

theorem builtBucketIx : BuiltIndexer (.fifu ⟨1, 2, 3⟩) :=
  .fifu (b := 1) (mn := 2) (mx := 3) (by decide)

theorem builtFtIx : BuiltIndexer (.ft ⟨2, 2, 3⟩) :=
  .ft (b := 2) (mn := 2) (mx := 3) (by decide)

theorem builtExplIx : BuiltIndexer (.expl explIx) :=
  .explIdx (gs := explIx.ngrams) (mn := 2) (mx := 3) (d := explIx.index) (by decide) (by decide)

theorem builtSimple : BuiltVocab simple := ⟨(by intro ix h; cases h), (by decide)⟩
theorem builtBucket : BuiltVocab bucket :=
  ⟨by intro ix h; cases h; exact builtBucketIx, by decide⟩
theorem builtFt : BuiltVocab ft := ⟨by intro ix h; cases h; exact builtFtIx, by decide⟩
theorem builtExpl : BuiltVocab expl := ⟨by intro ix h; cases h; exact builtExplIx, by decide⟩

theorem wf3 : StorageWF (.nd nd3) := by unfold StorageWF nd3 Mat.WF ShapeOk; decide
theorem wf5 : StorageWF (.nd nd5) := by unfold StorageWF nd5 Mat.WF ShapeOk; decide
theorem wfq : StorageWF (.quant q5) :=
  ⟨by decide, by decide, by decide, by decide,
    by intro p h; cases h; exact ⟨by unfold Mat.WF; decide, by decide, by decide⟩,
    by intro n h; cases h; rfl, by decide, by decide, by decide⟩

theorem builtEmbSimple : BuiltEmb embSimple := ⟨builtSimple, wf3, rfl⟩
theorem builtEmbBucket : BuiltEmb embBucket := ⟨builtBucket, wf5, rfl⟩
theorem builtEmbFt : BuiltEmb embFt := ⟨builtFt, wfq, rfl⟩
theorem builtEmbExpl : BuiltEmb embExpl := ⟨builtExpl, wfq, rfl⟩

theorem tomlSimple : TomlOk toml embSimple.metadata := by
  intro m s h1 h2; cases h1; rfl
theorem tomlFt : TomlOk toml embFt.metadata := by
  intro m s h1 h2; cases h1; rfl
theorem tomlBucket : TomlOk toml embBucket.metadata := by
  intro m s h1 h2; cases h1
theorem tomlExpl : TomlOk toml embExpl.metadata := by
  intro m s h1 h2; cases h1

theorem ngSimple : HasNgrams simple := by intro ix h; cases h
theorem ngBucket : HasNgrams bucket := by intro ix h; cases h
theorem ngFt : HasNgrams ft := by intro ix h; cases h
theorem ngExpl : HasNgrams expl := by intro ix h; cases h; decide

/-! ### Evaluating concrete cases -/

theorem file_ok {w : Wr Unit} (h : w.file.1 = .ok ()) : w.file = (.ok (), w.file.2) :=
  Prod.ext h rfl

theorem wr_ok {w : Wr Unit} {pre : Bytes} (h : (w pre).1 = .ok ()) :
    w pre = (.ok (), (w pre).2) := Prod.ext h rfl

/-- The exception, if any. -/
def errOf {α : Type} : Res α → Option PyErr
  | .ok _ => none
  | .error e => some e

theorem of_errOf {α : Type} {r : Res α} {e : PyErr} (h : errOf r = some e) : r = .error e := by
  cases r with
  | ok a => cases h
  | error e' => cases h; rfl

theorem ok_of_errOf {α : Type} {r : Res α} (h : errOf r = none) : ∃ a, r = .ok a := by
  cases r with
  | ok a => exact ⟨a, rfl⟩
  | error e' => cases h

theorem writeSimple : ((embSimple.write toml).file).1 = .ok () := by decide +kernel
theorem writeBucket : ((embBucket.write toml).file).1 = .ok () := by decide +kernel
theorem writeFt : ((embFt.write toml).file).1 = .ok () := by decide +kernel
theorem writeExpl : ((embExpl.write toml).file).1 = .ok () := by decide +kernel

end FF.Sample
