import Verif.Lemmas.Optimized
import Verif.Lemmas.OptimizedFt
import Verif.Lemmas.OptBuilt
import Verif.Lemmas.EmbIO
import Verif.Lemmas.TextFile
import Verif.Lemmas.W2vFile
import Verif.Spec.Samples
import Verif.Props.C11
import Verif.Props.C43
import Verif.Props.C59
/-! C81: loading with assertions switched off. -/

namespace FF

theorem Res.Asserts.same {α : Type} {z : Bool} {r r' : Res α} {a : α} (h : Res.Asserts z r r') (hr : r = .ok a) :
    r' = .ok a := by
  rcases h with rfl | h | ⟨_, h⟩
  · exact hr
  · rw [hr] at h; cases h
  · rw [hr] at h; cases h

theorem Res.Asserts.only {α : Type} {r r' : Res α} (h : Res.Asserts false r r') (hr : r ≠ r') :
    r = .error .assertionError := by
  rcases h with h | h | ⟨h, _⟩
  · exact (hr h).elim
  · exact h
  · cases h

section
variable {K : Type} [NumOps K]

/-- What loads with assertions loads without them, to the same. -/
theorem C81_same (T : Toml) (mmap lossy : Bool) (bs : Bytes) [Codec K] [NumText K] [TextIO] :
    (∀ e, Rd.run (loadFinalfusion T mmap) bs = .ok e → Rd.run (Opt.loadFinalfusion T mmap) bs = .ok e) ∧
    (∀ v, Rd.run loadVocab bs = .ok v → Rd.run Opt.loadVocab bs = .ok v) ∧
    (∀ st, Rd.run (loadStorage mmap) bs = .ok st → Rd.run (Opt.loadStorage mmap) bs = .ok st) ∧
    (∀ e : Embeddings K, Rd.run (loadWord2vec lossy) bs = .ok e → Rd.run (Opt.loadWord2vec lossy) bs = .ok e) ∧
    (∀ e : Embeddings K, loadTextDims lossy bs = .ok e → Opt.loadTextDims lossy bs = .ok e) ∧
    (∀ e : Embeddings K, loadText lossy bs = .ok e → Opt.loadText lossy bs = .ok e) :=
  ⟨fun _ => ((Asserts.loadFinalfusion T mmap).run_ bs).same,
    fun _ => ((Asserts.loadVocab (z := false)).run_ bs).same,
    fun _ => ((Asserts.loadStorage mmap).run_ bs).same,
    fun _ => ((Asserts.loadWord2vec (z := false) lossy).run_ bs).same,
    fun _ => (Asserts.loadTextDims (z := false) lossy bs).same,
    fun _ => (Asserts.loadText (z := false) lossy bs).same⟩

/-- Where the outcomes differ, loading with assertions raised `AssertionError`, or `ZeroDivisionError` where the
condition of an assertion divides: storages may be quantized. -/
theorem C81_only (T : Toml) (mmap lossy : Bool) (bs : Bytes) [Codec K] [NumText K] [TextIO] :
    (Rd.run (loadFinalfusion T mmap) bs ≠ Rd.run (Opt.loadFinalfusion T mmap) bs →
      Rd.run (loadFinalfusion T mmap) bs = .error .assertionError ∨
      Rd.run (loadFinalfusion T mmap) bs = .error .zeroDivisionError) ∧
    (Rd.run loadVocab bs ≠ Rd.run Opt.loadVocab bs → Rd.run loadVocab bs = .error .assertionError) ∧
    (Rd.run (loadStorage mmap) bs ≠ Rd.run (Opt.loadStorage mmap) bs →
      Rd.run (loadStorage mmap) bs = .error .assertionError ∨
      Rd.run (loadStorage mmap) bs = .error .zeroDivisionError) ∧
    (Rd.run (loadWord2vec lossy : Rd (Embeddings K)) bs ≠ Rd.run (Opt.loadWord2vec lossy) bs →
      Rd.run (loadWord2vec lossy : Rd (Embeddings K)) bs = .error .assertionError) ∧
    ((loadTextDims lossy bs : Res (Embeddings K)) ≠ Opt.loadTextDims lossy bs →
      (loadTextDims lossy bs : Res (Embeddings K)) = .error .assertionError) ∧
    ((loadText lossy bs : Res (Embeddings K)) ≠ Opt.loadText lossy bs →
      (loadText lossy bs : Res (Embeddings K)) = .error .assertionError) := by
  refine ⟨fun h => ?_, ((Asserts.loadVocab (z := false)).run_ bs).only, fun h => ?_,
    ((Asserts.loadWord2vec (z := false) lossy).run_ bs).only,
    (Asserts.loadTextDims (z := false) lossy bs).only, (Asserts.loadText (z := false) lossy bs).only⟩
  · rcases (Asserts.loadFinalfusion T mmap).run_ bs with h' | h' | ⟨_, h'⟩
    · exact (h h').elim
    · exact .inl h'
    · exact .inr h'
  · rcases (Asserts.loadStorage mmap).run_ bs with h' | h' | ⟨_, h'⟩
    · exact (h h').elim
    · exact .inl h'
    · exact .inr h'

/-- fastText files of less than 512 MiB: where the outcomes differ, loading with assertions raised `AssertionError`. -/
theorem C81_fasttext (lossy : Bool) (bs : Bytes) (hbs : bs.length < 2 ^ 29) [Codec K] :
    Opt.loadFasttext lossy bs = .ok (Rd.run (loadFasttext lossy) bs : Res (Embeddings K)) ∨
      (Rd.run (loadFasttext lossy) bs : Res (Embeddings K)) = .error .assertionError :=
  loadFasttext_asserts lossy bs hbs

/-- Words, and as many vectors as the matrix has rows -/
theorem build_iff {words : List PyStr} {cols : Nat} {m : List (List K)} {n : List K} {md : Option Meta}
    (hn : n.length = m.length) {e : Embeddings K} :
    (do let v ← Vocab.new words none; Embeddings.new (.nd ⟨cols, m⟩) v (some n) md : Res (Embeddings K)) = .ok e ↔
    (do let v ← Opt.vocab words none; Opt.embeddings (.nd ⟨cols, m⟩) v (some n) md : Res (Embeddings K)) = .ok e ∧
      e.vocab.words.Nodup ∧ e.vocab.words.length = e.storage.nRows := by
  constructor
  · intro h
    refine ⟨Res.Asserts.same (z := false) (Asserts.bind (Asserts.vocab _ _) fun v => Asserts.embeddings _ _ _ _) h, ?_⟩
    obtain ⟨v, hv, h⟩ := res_bind_inv h
    obtain ⟨hd, rfl⟩ := Vocab.new_ok.mp hv
    unfold Embeddings.new at h
    obtain ⟨_, hc, h⟩ := res_bind_inv h
    cases h
    refine ⟨hd, ?_⟩
    have := (check_parts.mp hc).1
    simp only [Vocab.upperBound, Vocab.len, enumItems_length] at this
    exact_mod_cast this.symm
  · rintro ⟨h, hd, hl⟩
    cases h
    simp only at hd hl
    rw [Vocab.new_ok.mpr ⟨hd, rfl⟩]
    have he : Dict.ofPairs (enumItems words) = enumItems words := by
      have h1 := validateItems_ok.mpr ⟨hd, (rfl : enumItems words = enumItems words)⟩
      have := (Asserts.validateItems (z := false) words).same h1
      exact Except.ok.inj this
    rw [he]
    have hc : checkRequirements (.nd ⟨cols, m⟩ : Storage K) ⟨words, enumItems words, none⟩ (some n) = .ok () := by
      refine check_parts.mpr ⟨?_, ?_⟩
      · simp only [Vocab.upperBound, Vocab.len, enumItems_length]
        exact_mod_cast hl.symm
      · intro k hk
        cases hk
        simp only [Storage.nRows, Vocab.len, enumItems_length] at hl ⊢
        omega
    show (Embeddings.new _ _ _ _ : Res (Embeddings K)) = _
    unfold Embeddings.new
    rw [hc]
    rfl

omit [NumOps K] in
theorem step_iff {α : Type} {r : Res α} {f f' : α → Res (Embeddings K)} {e : Embeddings K} {P : Prop}
    (h : ∀ a, f a = .ok e ↔ f' a = .ok e ∧ P) : (r >>= f) = .ok e ↔ (r >>= f') = .ok e ∧ P := by
  cases r with
  | error x =>
    constructor
    · intro h; cases h
    · rintro ⟨h, _⟩; cases h
  | ok a => exact h a

theorem lines_iff [NumText K] {file : Lines} {r c : Int} {e : Embeddings K} :
    loadTextLines file r c = .ok e ↔ Opt.loadTextLines file r c = .ok e ∧
      e.vocab.words.Nodup ∧ e.vocab.words.length = e.storage.nRows :=
  step_iff fun _ => step_iff fun _ => build_iff (by simp [normalizeMatrix])

/-- For text files the assertions reject exactly files with a repeated word, or with another number of lines than
announced. -/
theorem C81_text (lossy : Bool) (bs : Bytes) [NumText K] [TextIO] (e : Embeddings K) :
    (loadTextDims lossy bs = .ok e ↔ Opt.loadTextDims lossy bs = .ok e ∧
      e.vocab.words.Nodup ∧ e.vocab.words.length = e.storage.nRows) ∧
    (loadText lossy bs = .ok e ↔ Opt.loadText lossy bs = .ok e ∧
      e.vocab.words.Nodup ∧ e.vocab.words.length = e.storage.nRows) :=
by
  constructor
  · refine step_iff fun p => ?_
    cases p with
    | none =>
      constructor
      · intro h; cases h
      · rintro ⟨h, _⟩; cases h
    | some p => exact step_iff fun _ => lines_iff
  · refine step_iff fun p => ?_
    cases p with
    | none =>
      constructor
      · intro h; cases h
      · rintro ⟨h, _⟩; cases h
    | some p => exact step_iff fun _ => lines_iff

omit [NumOps K] in
theorem rd_step_iff {α : Type} {r : Rd α} {f f' : α → Rd (Embeddings K)} {P : Embeddings K → Prop}
    (h : ∀ a s e s', f a s = .ok (e, s') ↔ f' a s = .ok (e, s') ∧ P e) (s : RFile) (e : Embeddings K) (s' : RFile) :
    (r >>= f) s = .ok (e, s') ↔ (r >>= f') s = .ok (e, s') ∧ P e := by
  rw [rd_bind, rd_bind]
  cases r s with
  | error x =>
    constructor
    · intro h; cases h
    · rintro ⟨h, _⟩; cases h
  | ok p => exact h p.1 p.2 e s'

omit [NumOps K] in
theorem lift_iff {r : Res α} {f : α → Res (Embeddings K)} {r' : Res β} {f' : β → Res (Embeddings K)}
    {P : Embeddings K → Prop} (h : ∀ e, (r >>= f) = .ok e ↔ (r' >>= f') = .ok e ∧ P e)
    (s : RFile) (e : Embeddings K) (s' : RFile) :
    (Rd.lift r >>= fun a => Rd.lift (f a)) s = .ok (e, s') ↔
      (Rd.lift r' >>= fun a => Rd.lift (f' a)) s = .ok (e, s') ∧ P e := by
  have k : ∀ {γ : Type} (r : Res γ) (f : γ → Res (Embeddings K)),
      (Rd.lift r >>= fun a => Rd.lift (f a)) s = .ok (e, s') ↔ (r >>= f) = .ok e ∧ s = s' := by
    intro γ r f
    rw [rd_bind]
    unfold Rd.lift
    cases r with
    | error x =>
      constructor
      · intro h; cases h
      · rintro ⟨h, _⟩; cases h
    | ok a =>
      show (Rd.lift (f a) s) = _ ↔ f a = _ ∧ _
      unfold Rd.lift
      cases f a with
      | error x =>
        constructor
        · intro h; cases h
        · rintro ⟨h, _⟩; cases h
      | ok b =>
        constructor
        · intro h; cases h; exact ⟨rfl, rfl⟩
        · rintro ⟨h, rfl⟩; cases h; rfl
  rw [k, k, h e]
  tauto

/-- For word2vec files the assertions reject exactly files with a repeated word. -/
theorem C81_word2vec (lossy : Bool) (bs : Bytes) [Codec K] (e : Embeddings K) :
    Rd.run (loadWord2vec lossy) bs = .ok e ↔ Rd.run (Opt.loadWord2vec lossy) bs = .ok e ∧ e.vocab.words.Nodup := by
  have h : ∀ s (e : Embeddings K) s', loadWord2vec lossy s = .ok (e, s') ↔
      Opt.loadWord2vec lossy s = .ok (e, s') ∧ e.vocab.words.Nodup :=
    rd_step_iff fun _ => rd_step_iff fun _ => rd_step_iff fun _ => rd_step_iff fun _ => rd_step_iff fun rows =>
      lift_iff fun e => (build_iff (by simp [normalizeMatrix])).trans
        ⟨fun h => ⟨h.1, h.2.1⟩, fun h => ⟨h.1, h.2, by
          have := h.1
          cases this
          simp [Storage.nRows, normalizeMatrix]⟩⟩
  unfold Rd.run
  constructor
  · intro hr
    cases hm : (loadWord2vec lossy : Rd (Embeddings K)) ⟨bs, 0⟩ with
    | error x => rw [hm] at hr; cases hr
    | ok p =>
      rw [hm] at hr
      cases hr
      have := (h _ _ _).mp hm
      rw [this.1]
      exact ⟨rfl, this.2⟩
  · rintro ⟨hr, hd⟩
    cases hm : (Opt.loadWord2vec lossy : Rd (Embeddings K)) ⟨bs, 0⟩ with
    | error x => rw [hm] at hr; cases hr
    | ok p =>
      rw [hm] at hr
      cases hr
      rw [(h _ _ _).mpr ⟨hm, hd⟩]

end

/-! ### Embeddings that do not fit together -/

namespace Sample

/-- Three words, one row -/
def fewRows : Embeddings F32 := ⟨.nd ⟨2, [[1, 2]]⟩, simple, none, none⟩

/-- Three rows; the first word comes again. -/
def twice : Embeddings F32 := ⟨.nd nd3, ⟨[[97], [98], [97]], [], none⟩, none, none⟩

/-- Three words, one norm -/
def fewNorms : Embeddings F32 := ⟨.nd nd3, simple, some [7], none⟩

/-- The file -/
def bytes (e : Embeddings F32) : Bytes := ((e.write toml).file).2

/-- What `load_finalfusion` returns without assertions -/
def loaded (e : Embeddings F32) : Embeddings F32 :=
  ⟨e.storage, ⟨e.vocab.words, Dict.ofPairs (enumItems e.vocab.words), none⟩, e.norms, none⟩

/-- Compares the parts -/
def isLoaded (r : Res (Embeddings F32)) (m : Mat F32) (ws : List PyStr) (ix : List (PyStr × Nat))
    (ns : Option (List F32)) : Bool :=
  match r with
  | .ok ⟨.nd m', ⟨ws', ix', none⟩, ns', none⟩ =>
    decide (m'.cols = m.cols) && decide (m'.rows = m.rows) && decide (ws' = ws) &&
      decide ((ix' : List (PyStr × Nat)) = ix) && decide (ns' = ns)
  | _ => false

theorem of_isLoaded {r : Res (Embeddings F32)} {m : Mat F32} {ws : List PyStr} {ix : Dict PyStr Nat}
    {ns : Option (List F32)} (h : isLoaded r m ws ix ns = true) :
    r = .ok ⟨.nd m, ⟨ws, ix, none⟩, ns, none⟩ := by
  unfold isLoaded at h
  split at h
  · rename_i m' _ _ _
    simp only [Bool.and_eq_true, decide_eq_true_eq] at h
    obtain ⟨⟨⟨⟨h1, h2⟩, rfl⟩, h4⟩, rfl⟩ := h
    cases m
    cases m'
    subst h1 h2 h4
    rfl
  · cases h

/-- The two loads -/
def Rejected (e : Embeddings F32) : Prop :=
  Rd.run (loadFinalfusion toml false) (bytes e) = .error .assertionError ∧
  Rd.run (Opt.loadFinalfusion toml false) (bytes e) = .ok (loaded e)

theorem fewRows_rejected : Rejected fewRows := ⟨of_errOf (by decide +kernel), of_isLoaded (by decide +kernel)⟩
theorem twice_rejected : Rejected twice := ⟨of_errOf (by decide +kernel), of_isLoaded (by decide +kernel)⟩
/-- More buckets than rows can have numbers -/
def exp64 : Embeddings F32 := ⟨.nd nd3, ⟨words, [], some (.fifu ⟨64, 2, 3⟩)⟩, none, none⟩

/-- Has an indexer with the exponent 64 -/
def isExp64 (r : Res (Embeddings F32)) : Bool :=
  match r with
  | .ok ⟨_, ⟨_, _, some (.fifu ix)⟩, _, _⟩ => decide (ix = ⟨64, 2, 3⟩)
  | _ => false

/-- Vectors of two parts, each of length one -/
def qArr : QArr F32 :=
  ⟨⟨2, 1, [[[1], [2]], [[3], [4]]], none⟩, 2, [[1, 0], [0, 1], [1, 1]], none⟩

def embQuant81 : Embeddings F32 := ⟨.quant qArr, simple, none, none⟩

theorem builtQuantized81 : BuiltEmb embQuant81 :=
  ⟨builtSimple, ⟨by decide, by decide, by decide, by decide, (by intro p h; cases h), (by intro n h; cases h),
    by decide, by decide, by decide⟩, rfl⟩

/-- The file with 3 as the length of the vectors -/
def remainder : Bytes := (bytes embQuant81).set 82 3

/-- Compares the parts -/
def isEmbQ (r : Res (Embeddings F32)) : Bool :=
  match r with
  | .ok ⟨.quant ⟨⟨c, sub, qs, none⟩, qlen, codes, none⟩, v, none, none⟩ =>
    decide (c = 2) && decide (sub = 1) && decide (qs = [[[1], [2]], [[3], [4]]]) && decide (qlen = 2) &&
      decide (codes = [[1, 0], [0, 1], [1, 1]]) && decide (v = simple)
  | _ => false

theorem of_isEmbQ {r : Res (Embeddings F32)} (h : isEmbQ r = true) : r = .ok embQuant81 := by
  unfold isEmbQ at h
  split at h
  · simp only [Bool.and_eq_true, decide_eq_true_eq] at h
    obtain ⟨⟨⟨⟨⟨rfl, rfl⟩, rfl⟩, rfl⟩, rfl⟩, rfl⟩ := h
    rfl
  · cases h

theorem fewNorms_rejected : Rejected fewNorms := ⟨of_errOf (by decide +kernel), of_isLoaded (by decide +kernel)⟩

end Sample

/-- What the assertions check while a vocabulary is loaded is the vocabulary: `load_vocab` accepts the files that it
accepts without assertions if the vocabulary is one that the constructors accept. -/
theorem C81_vocab (bs : Bytes) (v : Vocab) :
    Rd.run loadVocab bs = .ok v ↔ Rd.run Opt.loadVocab bs = .ok v ∧ BuiltVocab v :=
  Checks.run_ Checks.loadVocab bs v

/-- The same for `load_finalfusion`, if the storage is not quantized; otherwise see `C81_remainder_refuted`. -/
theorem C81_finalfusion (T : Toml) (mmap : Bool) (bs : Bytes) (e : Embeddings F32)
    (hs : ∀ q, e.storage ≠ .quant q) :
    Rd.run (loadFinalfusion T mmap) bs = .ok e ↔
      Rd.run (Opt.loadFinalfusion T mmap) bs = .ok e ∧ BuiltEmb e := by
  constructor
  · intro h
    exact ⟨((Asserts.loadFinalfusion T mmap).run_ bs).same h, (loadFinalfusion_built h).1⟩
  · rintro ⟨h, hb⟩
    obtain ⟨s', h⟩ := rd_run_ok h
    have key : loadFinalfusion T mmap ⟨bs, 0⟩ = .ok (e, s') := by
      obtain ⟨_, s1, h1, h⟩ := rd_bind_inv h
      refine (rd_bind_ok h1).trans ?_
      obtain ⟨⟨c, md⟩, s2, h2, h⟩ := rd_bind_inv h
      rw [← Asserts.loadMetaPart] at h2
      refine (rd_bind_ok h2).trans ?_
      obtain ⟨v, s3, h3, h⟩ := rd_bind_inv h
      obtain ⟨st, s4, h4, h⟩ := rd_bind_inv h
      obtain ⟨n, s5, h5, h⟩ := rd_bind_inv h
      cases h
      refine (rd_bind_ok ((Checks.loadVocabPart c _ _ _).mpr ⟨h3, hb.vocab⟩)).trans ?_
      cases st with
      | quant q => exact absurd rfl (hs q)
      | nd m =>
        refine (rd_bind_ok (Checks.loadStoragePart h4)).trans ((rd_bind_ok h5).trans ?_)
        show Rd.lift (Embeddings.new _ _ _ _) _ = _
        rw [hb.new]
        rfl
    unfold Rd.run
    rw [key]

/-- The consistency of what is loaded rests on assertions.  Without them `load_finalfusion` returns embeddings where a
word of the vocabulary has no vector, ... -/
theorem C81_refuted [NumOps F32] : ∃ bs e,
    Rd.run (loadFinalfusion Sample.toml false) bs = .error .assertionError ∧
    Rd.run (Opt.loadFinalfusion Sample.toml false) bs = .ok e ∧
    ∃ w ∈ e.vocab.words, e.getItem w = .error .indexError :=
  ⟨_, _, Sample.fewRows_rejected.1, Sample.fewRows_rejected.2, [0xDF], by decide, rfl⟩

/-- ... where a word occurs twice and only its last vector is found, ... -/
theorem C81_twice_refuted [NumOps F32] : ∃ bs e,
    Rd.run (loadFinalfusion Sample.toml false) bs = .error .assertionError ∧
    Rd.run (Opt.loadFinalfusion Sample.toml false) bs = .ok e ∧
    ∃ w r r', e.vocab.words[0]? = some w ∧ e.storage.getOne 0 = .ok r ∧ e.getItem w = .ok r' ∧ r ≠ r' :=
  ⟨_, _, Sample.twice_rejected.1, Sample.twice_rejected.2, [97], [1, 2], [5, 6], rfl, rfl, rfl, by decide⟩

/-- ... or where the vector of a word is there but not found, as its norm is missing. -/
theorem C81_norms_refuted [NumOps F32] : ∃ bs e,
    Rd.run (loadFinalfusion Sample.toml false) bs = .error .assertionError ∧
    Rd.run (Opt.loadFinalfusion Sample.toml false) bs = .ok e ∧
    ∃ (w : PyStr) (i : Nat) (r : List F32), e.vocab.words[i]? = some w ∧ e.storage.getOne i = .ok r ∧ e.getItem w = .error .indexError :=
  ⟨_, _, Sample.fewNorms_rejected.1, Sample.fewNorms_rejected.2, [0xDF], 1, [3, 4], rfl, rfl, rfl⟩

/-- Vectors whose length is not a multiple of the number of their parts are shortened without assertions. -/
theorem C81_remainder_refuted [NumOps F32] : ∃ bs e, BuiltEmb e ∧
    Rd.run (loadFinalfusion Sample.toml false) bs = .error .assertionError ∧
    Rd.run (Opt.loadFinalfusion Sample.toml false) bs = .ok e :=
  ⟨Sample.remainder, Sample.embQuant81, Sample.builtQuantized81, Sample.of_errOf (by decide +kernel),
    Sample.of_isEmbQ (by decide +kernel)⟩

/-- A file with more buckets than fit into 64 bits is loaded. -/
theorem C81_exponent_refuted [NumOps F32] : ∃ bs e ix, Rd.run (loadFinalfusion Sample.toml false) bs = .error .assertionError ∧
    Rd.run (Opt.loadFinalfusion Sample.toml false) bs = .ok e ∧ e.vocab.sub = some (.fifu ix) ∧ ix.bucketsExp = 64 := by
  have h : Sample.isExp64 (Rd.run (Opt.loadFinalfusion Sample.toml false) (Sample.bytes Sample.exp64)) = true := by
    decide +kernel
  unfold Sample.isExp64 at h
  split at h
  · rename_i st ws d ix ns md he
    have hix : ix = ⟨64, 2, 3⟩ := of_decide_eq_true h
    exact ⟨_, _, ix, Sample.of_errOf (by decide +kernel), he, rfl, by rw [hix]⟩
  · cases h

/-- Both load the same from a good file, and only one of them from one where a word comes twice. -/
example [NumOps F32] : (∃ e, Rd.run (loadFinalfusion Sample.toml true) (Sample.bytes Sample.embBucket) = .ok e ∧
      Rd.run (Opt.loadFinalfusion Sample.toml true) (Sample.bytes Sample.embBucket) = .ok e ∧ BuiltEmb e) ∧
    ¬ BuiltEmb (Sample.loaded Sample.twice) := by
  constructor
  · have h : (match Rd.run (loadFinalfusion Sample.toml true) (Sample.bytes Sample.embBucket) with
        | .ok ⟨.nd _, _, _, _⟩ => true
        | _ => false) = true := by decide +kernel
    split at h
    · rename_i m v n md he
      exact ⟨_, he, (C81_finalfusion Sample.toml true _ _ (by intro q hq; cases hq)).mp he⟩
    · cases h
  · intro hb
    have := (C81_finalfusion Sample.toml false _ (Sample.loaded Sample.twice) (by intro q hq; cases hq)).mpr
      ⟨Sample.twice_rejected.2, hb⟩
    rw [Sample.twice_rejected.1] at this
    cases this

/-- An explicit vocabulary -/
example : ∃ v, Rd.run loadVocab (Sample.bytes Sample.embExpl) = .ok v ∧
    Rd.run Opt.loadVocab (Sample.bytes Sample.embExpl) = .ok v ∧ BuiltVocab v := by
  obtain ⟨v, h⟩ := Sample.ok_of_errOf (r := Rd.run loadVocab (Sample.bytes Sample.embExpl)) (by decide +kernel)
  exact ⟨v, h, (C81_vocab _ v).mp h⟩

namespace Sample

/-- No buckets -/
def ftFile0 : FtFile := { ftFile1 with buckets := 0, rows := [[1, 2]] }

/-- The same as a finalfusion file -/
def ft0 : Embeddings F32 := ⟨.nd nd3, ⟨words, [], some (.ft ⟨0, 2, 3⟩)⟩, none, none⟩

/-- The fault, if any -/
def faultOf {α : Type} : CM α → Option CFault
  | .ok _ => none
  | .error x => some x

theorem of_faultOf {α : Type} {r : CM α} {x : CFault} (h : faultOf r = some x) : r = .error x := by
  cases r with
  | ok a => cases h
  | error e' => cases h; rfl

/-- Has an indexer without buckets -/
def isFt0 (r : Res (Embeddings F32)) : Bool :=
  match r with
  | .ok ⟨_, ⟨_, _, some (.ft ix)⟩, _, _⟩ => decide (ix = ⟨0, 2, 3⟩)
  | _ => false

end Sample

/-- Without assertions, a fastText file of a few bytes makes `load_fasttext` divide by zero in C code. -/
theorem C81_crash_refuted : ∃ bs : Bytes, bs.length < 200 ∧
    (Rd.run (@loadFasttext F32 Sample.f32Ops _ false) bs) = .error .assertionError ∧
    @Opt.loadFasttext F32 Sample.f32Ops _ false bs = .error .divZero :=
  ⟨Sample.ftFile0.bytes, by decide +kernel, Sample.of_errOf (by decide +kernel), Sample.of_faultOf (by decide +kernel)⟩

/-- A finalfusion file that loads without assertions, after which `subword_indices`, which looks up unknown words, divides
by zero in C code for every word. -/
theorem C81_lookup_crash_refuted (emit : PyStr → Nat → Nat) : ∃ bs e ix,
    Rd.run (loadFinalfusion Sample.toml false) bs = .error .assertionError ∧
    Rd.run (Opt.loadFinalfusion Sample.toml false) bs = .ok e ∧ e.vocab.sub = some (.ft ix) ∧
    ∀ (w : PyStr) (offset : UInt64), w.any isSurrogate = false → w.length < 2 ^ 29 →
      cFtSubwords emit (UInt32.ofNat ix.minN) (UInt32.ofNat ix.maxN) (UInt64.ofNat ix.nBuckets) w offset true =
        .error .divZero := by
  have h : Sample.isFt0 (Rd.run (Opt.loadFinalfusion Sample.toml false) (Sample.bytes Sample.ft0)) = true := by
    decide +kernel
  unfold Sample.isFt0 at h
  split at h
  · rename_i st ws d ix ns md he
    have hix : ix = ⟨0, 2, 3⟩ := of_decide_eq_true h
    subst hix
    refine ⟨_, _, _, Sample.of_errOf (by decide +kernel), he, rfl, fun w offset hw hl => ?_⟩
    have hb : (bracketed true w).any isSurrogate = false := by
      unfold bracketed
      simp only [if_true, List.any_append, List.any_cons, hw]
      decide
    have he : encode (bracketed true w) = .ok (utf8 (bracketed true w)) := by
      unfold encode
      rw [hb]
      rfl
    refine C79_fasttext_div emit 2 3 w offset true (by decide) (by decide) ?_ _ he (wordFits hl true _ he)
    unfold bracketed
    simp
  · cases h

/-! Files that load, and files where the outcomes differ -/

example : ∃ e, Rd.run (loadFinalfusion Sample.toml false) (Sample.bytes Sample.embExpl) = .ok e ∧
    Rd.run (Opt.loadFinalfusion Sample.toml false) (Sample.bytes Sample.embExpl) = .ok e := by
  obtain ⟨e, he⟩ := Sample.ok_of_errOf (r := Rd.run (loadFinalfusion Sample.toml false) (Sample.bytes Sample.embExpl))
    (by decide +kernel)
  exact ⟨e, he, (@C81_same F32 Sample.f32Ops Sample.toml false false _ _ Sample.f32Text Sample.textIO).1 e he⟩

example : Rd.run (loadFinalfusion Sample.toml false) (Sample.bytes Sample.twice) ≠
    Rd.run (Opt.loadFinalfusion Sample.toml false) (Sample.bytes Sample.twice) := by
  rw [Sample.twice_rejected.1, Sample.twice_rejected.2]
  exact fun h => by cases h

/-- A quantized array without codebooks: another exception -/
example : Rd.run (loadStorage false) (headerBytes [4] ++ chunkStart 4 ++ List.replicate 28 0) =
      .error .zeroDivisionError ∧
    Rd.run (Opt.loadStorage false) (headerBytes [4] ++ chunkStart 4 ++ List.replicate 28 0) =
      .error .formatError :=
  ⟨Sample.of_errOf (by decide +kernel), Sample.of_errOf (by decide +kernel)⟩

section

local instance : NumOps F32 := Sample.f32Ops

example : ∃ e : Embeddings F32, Opt.loadFasttext false Sample.ftFile1.bytes = .ok (.ok e) := by
  obtain ⟨e, he⟩ := Sample.ok_of_errOf
    (r := (Rd.run (loadFasttext false) Sample.ftFile1.bytes : Res (Embeddings F32))) (by decide +kernel)
  rcases C81_fasttext (K := F32) false Sample.ftFile1.bytes (by decide +kernel) with h | h
  · exact ⟨e, by rw [h, he]⟩
  · rw [he] at h; cases h

local instance : NumText F32 := Sample.f32Text
local instance : TextIO := Sample.textIO

/-- `a 1`, `b 2`, `a 3`: only the assertion rejects it. -/
example : (loadText false (utf8 [97, 32, 49, 10, 98, 32, 50, 10, 97, 32, 51, 10]) : Res (Embeddings F32)) =
      .error .assertionError ∧
    ∃ e : Embeddings F32, Opt.loadText false (utf8 [97, 32, 49, 10, 98, 32, 50, 10, 97, 32, 51, 10]) = .ok e :=
  ⟨Sample.of_errOf (by decide +kernel), Sample.ok_of_errOf (by decide +kernel)⟩

example : ∃ e : Embeddings F32, loadText false (utf8 [97, 32, 49, 10, 98, 32, 50, 10]) = .ok e ∧
    e.vocab.words.Nodup := by
  obtain ⟨e, he⟩ := Sample.ok_of_errOf
    (r := (loadText false (utf8 [97, 32, 49, 10, 98, 32, 50, 10]) : Res (Embeddings F32))) (by decide +kernel)
  exact ⟨e, he, ((C81_text false _ e).2.mp he).2.1⟩

/-- The word `a` twice -/
example : Rd.run (loadWord2vec false : Rd (Embeddings F32))
      ([50, 32, 49, 10] ++ [97, 32] ++ le 4 1 ++ [10, 97, 32] ++ le 4 2 ++ [10]) = .error .assertionError ∧
    ∃ e : Embeddings F32, Rd.run (Opt.loadWord2vec false)
      ([50, 32, 49, 10] ++ [97, 32] ++ le 4 1 ++ [10, 97, 32] ++ le 4 2 ++ [10]) = .ok e ∧
      ¬ e.vocab.words.Nodup := by
  have h1 : Rd.run (loadWord2vec false : Rd (Embeddings F32))
      ([50, 32, 49, 10] ++ [97, 32] ++ le 4 1 ++ [10, 97, 32] ++ le 4 2 ++ [10]) = .error .assertionError :=
    Sample.of_errOf (by decide +kernel)
  obtain ⟨e, he⟩ := Sample.ok_of_errOf (r := (Rd.run (Opt.loadWord2vec false)
      ([50, 32, 49, 10] ++ [97, 32] ++ le 4 1 ++ [10, 97, 32] ++ le 4 2 ++ [10]) : Res (Embeddings F32)))
    (by decide +kernel)
  refine ⟨h1, e, he, fun hd => ?_⟩
  rw [(C81_word2vec false _ e).mpr ⟨he, hd⟩] at h1
  cases h1

end

end FF
