import Verif.Lemmas.ErrsCompat
import Verif.Lemmas.Exports
import Verif.Lemmas.ToExplicit
import Verif.Lemmas.Sim
import Verif.Props.C64
import Verif.Props.C27
/-! Which computations do not raise `UnicodeEncodeError`. -/

namespace FF

/-- Anything but `UnicodeEncodeError` -/
def NoEnc (e : PyErr) : Prop := e ≠ .unicodeEncodeError

theorem noEnc_io : IoErrs NoEnc := by constructor <;> simp [NoEnc]

theorem noEnc_text : TextErrs NoEnc := by constructor <;> simp [NoEnc]

theorem noEnc_ft : FtErrs NoEnc := by constructor <;> first | exact noEnc_text | simp [NoEnc]

theorem neEnc {α : Type} {r : Res α} (h : r ≠ .error .unicodeEncodeError) : ErrsR NoEnc r := by
  rintro e he rfl
  exact h he

theorem ErrsR.ne {α : Type} {r : Res α} (h : ErrsR NoEnc r) : r ≠ .error .unicodeEncodeError := fun he => h _ he rfl

theorem encodable_scalars {w : PyStr} : Encodable w ↔ Scalars w := by
  unfold Encodable Scalars isSurrogate
  refine forall_congr' fun c => imp_congr_right fun _ => ?_
  simp
  omega

theorem encode_noEnc {w : PyStr} (h : Scalars w) : ErrsR NoEnc (encode w) := by
  intro e he
  have := (encode_err_iff.mp he).1
  rw [scalars_any.mp h] at this
  cases this

section
variable {P : PyErr → Prop} {α β : Type}

theorem ErrsR.foldMem {f : β → α → Res β} (xs : List α) (h : ∀ x ∈ xs, ∀ b, ErrsR P (f b x)) :
    ∀ b, ErrsR P (foldRes f b xs) := by
  induction xs with
  | nil => intro b; exact ErrsR.ok _
  | cons x xs ih =>
    intro b
    exact (h x (by simp) b).bind fun b' => ih (fun y hy => h y (List.mem_cons_of_mem _ hy)) b'

/-- Every exception raised by the writer satisfies `P`. -/
def WErrs (P : PyErr → Prop) (w : Wr α) : Prop := ∀ s x s', w s = (.error x, s') → P x

theorem WErrs.pure (a : α) : WErrs P (pure a : Wr α) := by
  intro s x s' h; cases h

theorem WErrs.fail {e : PyErr} (h : P e) : WErrs P (Wr.fail e : Wr α) := by
  intro s x s' h'; cases h'; exact h

theorem WErrs.lift {r : Res α} (h : ErrsR P r) : WErrs P (Wr.lift r) := by
  intro s x s' h'
  cases r with
  | ok a => cases h'
  | error e' => cases h'; exact h _ rfl

theorem WErrs.bind' {w : Wr α} {f : α → Wr β} (h1 : WErrs P w) (h2 : ∀ a, (∃ s s', w s = (.ok a, s')) → WErrs P (f a)) :
    WErrs P (w >>= f) := by
  intro s x s' h
  rcases wr_bind_err h with h | ⟨a, t, ha, h⟩
  · exact h1 _ _ _ h
  · exact h2 a ⟨_, _, ha⟩ _ _ _ h

theorem WErrs.bind {w : Wr α} {f : α → Wr β} (h1 : WErrs P w) (h2 : ∀ a, WErrs P (f a)) : WErrs P (w >>= f) :=
  h1.bind' fun a _ => h2 a

theorem WErrs.tell : WErrs P Wr.tell := by
  intro s x s' h; cases h

theorem WErrs.forWr {f : α → Wr Unit} (xs : List α) (h : ∀ x ∈ xs, WErrs P (f x)) : WErrs P (forWr f xs) := by
  induction xs with
  | nil => exact WErrs.pure _
  | cons x xs ih => exact (h x (by simp)).bind fun _ => ih fun y hy => h y (List.mem_cons_of_mem _ hy)

end

theorem bytes_noEnc (bs : Bytes) : WErrs NoEnc (Wr.bytes bs) := by
  intro s x s' h
  unfold Wr.bytes at h
  split at h
  · cases h
  · cases h; simp [NoEnc]

theorem pack_noEnc (fs : List (Nat × Nat)) : ErrsR NoEnc (pack fs) := by
  unfold pack
  split
  · exact ErrsR.ok _
  · exact ErrsR.error (by simp [NoEnc])

theorem writeBinary_noEnc (fs : List (Nat × Nat)) : WErrs NoEnc (writeBinary fs) := by
  unfold writeBinary
  exact (WErrs.lift (pack_noEnc fs)).bind fun _ => bytes_noEnc _

theorem packInt_noEnc (w : Nat) (i : Int) : ErrsR NoEnc (packInt w i) := by
  unfold packInt
  split
  · exact pack_noEnc _
  · exact ErrsR.error (by simp [NoEnc])

theorem encodeAll_noEnc {ws : List PyStr} (h : ∀ w ∈ ws, Scalars w) : ErrsR NoEnc (encodeAll ws) := by
  induction ws with
  | nil => exact ErrsR.ok _
  | cons w ws ih =>
    unfold encodeAll
    exact (encode_noEnc (h w (by simp))).bind fun _ => (ih fun x hx => h x (List.mem_cons_of_mem _ hx)).bind fun _ => ErrsR.ok _

theorem binaryListSize_noEnc {ws : List PyStr} (h : ∀ w ∈ ws, Scalars w) : ErrsR NoEnc (binaryListSize ws) := by
  unfold binaryListSize byteLenSum
  exact ((encodeAll_noEnc h).bind fun _ => ErrsR.ok _).bind fun _ => ErrsR.ok _

theorem writeWords_noEnc {ws : List PyStr} (h : ∀ w ∈ ws, Scalars w) : WErrs NoEnc (writeWords ws) := by
  unfold writeWords
  exact WErrs.forWr _ fun w hw => (WErrs.lift (encode_noEnc (h w hw))).bind fun _ =>
    (writeBinary_noEnc _).bind fun _ => bytes_noEnc _

theorem vocabChunk_noEnc {v : Vocab} (h : ScalarVocab v) : WErrs NoEnc v.writeChunk := by
  unfold Vocab.writeChunk
  have hb : ∀ id a b c, WErrs NoEnc (writeBucketVocab v id a b c) := by
    intro id a b c
    unfold writeBucketVocab
    exact (WErrs.lift (binaryListSize_noEnc h.words)).bind fun _ => (writeBinary_noEnc _).bind fun _ => writeWords_noEnc h.words
  split
  · unfold writeSimpleVocab byteLenSum
    exact (writeBinary_noEnc _).bind fun _ => (WErrs.lift ((encodeAll_noEnc h.words).bind fun _ => ErrsR.ok _)).bind fun _ =>
      (writeBinary_noEnc _).bind fun _ => writeWords_noEnc h.words
  · exact hb _ _ _ _
  · exact hb _ _ _ _
  · rename_i ix hix
    have hg := h.ngrams ix hix
    unfold writeExplicitVocab
    refine (WErrs.lift (binaryListSize_noEnc h.words)).bind fun _ => (WErrs.lift (binaryListSize_noEnc hg)).bind fun _ =>
      (writeBinary_noEnc _).bind fun _ => (writeWords_noEnc h.words).bind fun _ => WErrs.forWr _ fun g hm =>
      (WErrs.lift (encode_noEnc (hg g hm))).bind fun _ => (writeBinary_noEnc _).bind fun _ => (bytes_noEnc _).bind fun _ => ?_
    split
    · exact WErrs.fail (by simp [NoEnc])
    · exact (WErrs.lift (packInt_noEnc _ _)).bind fun _ => bytes_noEnc _

theorem storageChunk_noEnc (st : Storage F32) : WErrs NoEnc st.writeChunk := by
  cases st with
  | nd m =>
    exact (writeBinary_noEnc _).bind fun _ => WErrs.tell.bind fun _ => (writeBinary_noEnc _).bind fun _ =>
      (bytes_noEnc _).bind fun _ => bytes_noEnc _
  | quant q =>
    refine (writeBinary_noEnc _).bind fun _ => WErrs.tell.bind fun _ => (writeBinary_noEnc _).bind fun _ =>
      (bytes_noEnc _).bind fun _ => ?_
    have h2 : WErrs NoEnc (do
        match q.norms with
        | some n => Wr.bytes (f32sLE n)
        | none => pure ()
        Wr.bytes q.codes.flatten : Wr Unit) := by
      cases q.norms with
      | none => exact bytes_noEnc _
      | some n => exact (bytes_noEnc _).bind fun _ => bytes_noEnc _
    have h1 : WErrs NoEnc (do
        Wr.bytes (f32sLE (q.pq.quantizers.map List.flatten).flatten)
        match q.norms with
        | some n => Wr.bytes (f32sLE n)
        | none => pure ()
        Wr.bytes q.codes.flatten : Wr Unit) := (bytes_noEnc _).bind fun _ => h2
    cases q.pq.projection with
    | none => exact h1
    | some p => exact (bytes_noEnc _).bind fun _ => h1

/-- What is needed of the `toml` package: it does not raise `UnicodeEncodeError` itself, and escapes surrogates. -/
structure TomlSafe (T : Toml) : Prop where
  loads : ∀ s, T.loads s ≠ .error .unicodeEncodeError
  dumps : ∀ m, T.dumps m ≠ .error .unicodeEncodeError
  text : ∀ m t, T.dumps m = .ok t → Encodable t

theorem write_noEnc {T : Toml} (hT : TomlSafe T) {e : Embeddings F32} (h : ScalarVocab e.vocab) : WErrs NoEnc (e.write T) := by
  have hn : WErrs NoEnc (match e.norms with
      | some n => writeNorms n
      | none => pure () : Wr Unit) := by
    split
    · exact (writeBinary_noEnc _).bind fun _ => WErrs.tell.bind fun _ => (writeBinary_noEnc _).bind fun _ =>
        (bytes_noEnc _).bind fun _ => bytes_noEnc _
    · exact WErrs.pure _
  unfold Embeddings.write writeHeader
  refine ((bytes_noEnc _).bind fun _ => writeBinary_noEnc _).bind fun _ => ?_
  cases e.metadata with
  | none => exact (vocabChunk_noEnc h).bind fun _ => (storageChunk_noEnc _).bind fun _ => hn
  | some m =>
    refine WErrs.bind ?_ fun _ => (vocabChunk_noEnc h).bind fun _ => (storageChunk_noEnc _).bind fun _ => hn
    unfold writeMetadata
    refine (WErrs.lift (neEnc (hT.dumps m))).bind' fun s hs => ?_
    obtain ⟨_, _, hs⟩ := hs
    exact (WErrs.lift (encode_noEnc (encodable_scalars.mp (hT.text m s (wr_lift_inv hs).1)))).bind fun _ =>
      (writeBinary_noEnc _).bind fun _ => bytes_noEnc _

section
variable [NumOps F32] [NumText F32]

theorem writer_noEnc {T : Toml} (hT : TomlSafe T) (hnum : ∀ x : F32, NumberText (NumText.str x)) (f : Format)
    {e : Embeddings F32} (he : BuiltEmb e) (h : ScalarVocab e.vocab) : (f.writer T e).file.1 ≠ .error .unicodeEncodeError := by
  have hw : ∀ w ∈ e.vocab.words, Encodable w := fun w hw => encodable_scalars.mpr (h.words w hw)
  have hk : ∀ {k : Nat} {w : PyStr}, e.vocab.words[k]? = some w → Encodable w := fun h => hw _ (List.mem_of_getElem? h)
  have hsp : Encodable [32] := by
    intro c hc
    simp at hc
    subst hc
    left; decide
  have ht : ∀ dims, (writeText dims e [32]).file.1 ≠ .error .unicodeEncodeError := by
    intro dims hx
    rcases C64_text_raises dims e he [32] hnum _ _ (Prod.ext hx rfl) with h1 | ⟨k, w, vs, left, h1, _, _, _, _, h2⟩
    · cases h1
    · rcases h2 with ⟨_, h2, _⟩ | ⟨_, h2, _⟩ | ⟨_, _, _, h2, _⟩
      · cases h2
      · exact h2 (hk h1)
      · exact h2 hsp
  intro hx
  cases f with
  | finalfusion =>
    have hx : (e.write T).file.1 = .error .unicodeEncodeError := hx
    obtain ⟨bs, hb⟩ : ∃ bs, (e.write T).file = (.error .unicodeEncodeError, bs) := ⟨_, Prod.ext hx rfl⟩
    exact write_noEnc hT h _ _ _ hb rfl
  | word2vec =>
    have hx : (writeWord2vec e).file.1 = .error .unicodeEncodeError := hx
    obtain ⟨bs, hb⟩ : ∃ bs, (writeWord2vec e).file = (.error .unicodeEncodeError, bs) := ⟨_, Prod.ext hx rfl⟩
    rcases C64_word2vec_raises e he _ _ hb with h1 | ⟨k, w, vs, h1, _, _, _, _, h2⟩
    · cases h1
    · rcases h2 with ⟨_, h2⟩ | ⟨_, h2, _⟩
      · cases h2
      · exact h2 (hk h1)
  | text => exact ht false hx
  | textdims => exact ht true hx
  | fasttext =>
    have hx : (writeFasttext e).file.1 = .error .unicodeEncodeError := hx
    obtain ⟨bs, hb⟩ : ∃ bs, (writeFasttext e).file = (.error .unicodeEncodeError, bs) := ⟨_, Prod.ext hx rfl⟩
    rcases C64_fasttext_raises e he _ _ hb with h1 | ⟨h1, _⟩ | ⟨ix, _, h2⟩
    · cases h1
    · cases h1
    · rcases h2 with ⟨h2, _⟩ | ⟨_, w, h2, h3⟩ | ⟨h2, _⟩ | ⟨h2, _⟩
      · cases h2
      · exact h3 (hw w h2)
      · cases h2
      · cases h2

theorem formatLoad_noEnc [TextIO] {T : Toml} (hT : TomlSafe T)
    (hp : ∀ s : PyStr, (NumText.parse s : Res F32) ≠ .error .unicodeEncodeError) (f : Format) (lossy mmap : Bool) (bs : Bytes) :
    ErrsR NoEnc (f.load T lossy mmap bs) := by
  have run : ∀ {α : Type} {m : Rd α}, Errs NoEnc m → ErrsR NoEnc (Rd.run m bs) := by
    intro α m h e he
    unfold Rd.run at he
    split at he
    · cases he
    · rename_i hm
      cases he
      exact h _ _ hm
  cases f with
  | finalfusion => exact run (loadFinalfusion_errs noEnc_io T mmap fun s => neEnc (hT.loads s))
  | fasttext => exact run (loadFasttext_errs noEnc_ft lossy)
  | word2vec => exact run (loadWord2vec_errs noEnc_text noEnc_ft.eof lossy)
  | textdims => exact loadTextDims_errs noEnc_text (fun s => neEnc (hp s)) (by simp [NoEnc]) lossy bs
  | text => exact loadText_errs noEnc_text (fun s => neEnc (hp s)) lossy bs

end

section
variable {K : Type} [NumOps K]

theorem call_noEnc {g : PyStr} (ix : Indexer) (h : Scalars g) : ErrsR NoEnc (ix.call g) := by
  cases ix with
  | fifu ix => exact ErrsR.ok _
  | ft ix =>
    refine ErrsR.bind ?_ fun _ => ErrsR.ok _
    unfold FtIndexer.call
    exact (encode_noEnc h).bind fun _ => ErrsR.ok _
  | expl ix => exact ErrsR.ok _

theorem wordNgrams_scalars {ix : Indexer} {w : PyStr} (h : Scalars w) : ∀ g ∈ wordNgrams ix w, Scalars g := by
  intro g hg c hc
  unfold wordNgrams at hg
  obtain ⟨p, _, rfl⟩ := List.mem_map.mp hg
  have hc := List.mem_of_mem_drop (List.mem_of_mem_take hc)
  unfold bracketed at hc
  rw [if_pos rfl] at hc
  simp at hc
  rcases hc with rfl | hc | rfl
  · rfl
  · exact h c hc
  · rfl

theorem allNgrams_scalars {ix : Indexer} {ws : List PyStr} (h : ∀ w ∈ ws, Scalars w) : ∀ g ∈ allNgrams ix ws, Scalars g := by
  intro g hg
  obtain ⟨w, hw, hg⟩ := List.mem_flatMap.mp hg
  exact wordNgrams_scalars (h w hw) g hg

theorem b2e_noEnc {v : Vocab} {ix : Indexer} (hix : BuiltIndexer ix) (h : ∀ w ∈ v.words, Scalars w) :
    ErrsR NoEnc (bucketToExplicit v ix) := by
  unfold bucketToExplicit
  rw [bucketToExplicit_fold hix]
  refine (ErrsR.foldMem _ (fun g hg st => ?_) _).bind fun st => (explNew_errs noEnc_io _ _ _ _).bind fun _ =>
    vocabNew_errs noEnc_io _ _
  have hg := allNgrams_scalars h g hg
  unfold b2eStep
  split
  · exact ErrsR.ok _
  · refine (call_noEnc ix hg).bind fun r => ?_
    cases r with
    | none => exact ErrsR.error (by simp [NoEnc])
    | some k =>
      simp only
      split
      · exact ErrsR.error (by simp [NoEnc])
      · exact ErrsR.ok _

theorem b2e_scalars {v v' : Vocab} {ix : Indexer} (hv : v.words.Nodup) (hix : BuiltIndexer ix) (h : ∀ w ∈ v.words, Scalars w)
    (hr : bucketToExplicit v ix = .ok v') : ScalarVocab v' := by
  obtain ⟨_, eix, bs, r⟩ := bucketToExplicit_inv hv hix hr
  rw [r.vocab]
  refine ⟨h, fun ix' hx g hg => ?_⟩
  cases hx
  exact allNgrams_scalars h g ((r.ngrams.2.1 g).mp hg)

omit [NumOps K] in
theorem slice_noEnc (s : Storage K) (sl : PySlice) : ErrsR NoEnc (s.slice sl) := by
  have key : ∀ {α : Type} (xs : List α), ErrsR NoEnc (npSlice xs sl) := by
    intro α xs e he
    rw [(npSlice_err he).1]; simp [NoEnc]
  cases s with
  | nd m => exact (key _).bind fun _ => ErrsR.ok _
  | quant q =>
    refine ErrsR.bind ?_ fun _ => ErrsR.ok _
    unfold QArr.slice
    refine (key _).bind fun _ => ?_
    cases q.norms with
    | none => exact ErrsR.ok _
    | some n => exact (key _).bind fun _ => ErrsR.ok _

theorem toArray_noEnc (s : Storage K) : ErrsR NoEnc s.toArray := by
  cases s with
  | nd m => exact ErrsR.ok _
  | quant q =>
    have key : ErrsR NoEnc (mapRes q.pq.reconstruct q.codes) := by
      intro e he
      obtain ⟨c, _, hc⟩ := mapRes_err he
      rw [reconstruct_err hc]; simp [NoEnc]
    show ErrsR NoEnc q.toArray
    unfold QArr.toArray
    cases q.norms with
    | none => exact key
    | some n =>
      refine key.bind fun out => ?_
      simp only
      split
      · exact (ErrsR.error (by simp [NoEnc])).bind fun _ => ErrsR.ok _
      · exact ErrsR.ok _

theorem b2eRow_noEnc (e : Embeddings K) (ix : Indexer) (eix : ExplIndexer) (n : Nat) (rows : List (List K)) {g : PyStr}
    (hg : Scalars g) : ErrsR NoEnc (b2eRow e ix eix n rows g) := by
  unfold b2eRow
  split
  · exact ErrsR.error (by simp [NoEnc])
  · refine (call_noEnc ix hg).bind fun r => ?_
    cases r with
    | none => exact ErrsR.error (by simp [NoEnc])
    | some k =>
      refine ErrsR.bind ?_ fun row => ?_
      · intro y hy; rw [getOne_err hy]; simp [NoEnc]
      · unfold npSet
        refine ErrsR.bind ?_ fun _ => ErrsR.ok _
        intro y hy; rw [(npIndex_err hy).1]; simp [NoEnc]

/-- `bucket_to_explicit`: no `UnicodeEncodeError`, and what comes out has no surrogates either. -/
theorem embToExplicit_noEnc {e : Embeddings K} (he : BuiltEmb e) (h : ScalarVocab e.vocab) :
    ErrsR NoEnc e.bucketToExplicit ∧ ∀ e', e.bucketToExplicit = .ok e' → ScalarVocab e'.vocab := by
  have hx : ErrsR NoEnc e.vocab.toExplicit ∧ ∀ v, e.vocab.toExplicit = .ok v → ScalarVocab v := by
    unfold Vocab.toExplicit
    split
    · rename_i ix hs
      exact ⟨b2e_noEnc (he.vocab.1 _ hs) h.words, fun v hv => b2e_scalars he.vocab.nodup (he.vocab.1 _ hs) h.words hv⟩
    · rename_i ix hs
      exact ⟨b2e_noEnc (he.vocab.1 _ hs) h.words, fun v hv => b2e_scalars he.vocab.nodup (he.vocab.1 _ hs) h.words hv⟩
    · exact ⟨ErrsR.error (by simp [NoEnc]), fun v hv => by cases hv⟩
  have tail : ∀ ix : Indexer, ErrsR NoEnc (do
      let vocab ← e.vocab.toExplicit
      match vocab.sub with
      | some (.expl eix) => do
        let cols := e.storage.nCols
        let n := vocab.len
        let _ ← zerosShape vocab.upperBound cols
        let zero := List.replicate vocab.upperBound.toNat (List.replicate cols NumOps.zero)
        let known ← e.storage.slice (.upTo n)
        let known ← known.toArray
        if known.length ≠ n then .error .valueError
        let rows := known ++ zero.drop n
        let rows ← foldRes (b2eRow e ix eix n) rows eix.ngrams
        Embeddings.new (.nd ⟨cols, rows⟩) vocab e.norms none
      | _ => .error .attributeError : Res (Embeddings K)) := by
    intro ix
    refine hx.1.bind' fun vocab hv => ?_
    have hv := hx.2 vocab hv
    split
    · rename_i eix hsub
      refine (zerosShape_errs noEnc_text _ _).bind fun _ => (slice_noEnc _ _).bind fun known => (toArray_noEnc known).bind fun known => ?_
      have fin : ErrsR NoEnc (do
          let rows ← foldRes (b2eRow e ix eix vocab.len) (known ++ (List.replicate vocab.upperBound.toNat
            (List.replicate e.storage.nCols NumOps.zero)).drop vocab.len) eix.ngrams
          Embeddings.new (.nd ⟨e.storage.nCols, rows⟩) vocab e.norms none : Res (Embeddings K)) :=
        (ErrsR.foldMem _ (fun g hg rows => b2eRow_noEnc e ix _ _ rows (hv.ngrams eix hsub g hg)) _).bind fun _ =>
          newEmb_errs noEnc_text _ _ _ _
      split
      · exact (ErrsR.error (by simp [NoEnc])).bind fun _ => fin
      · exact fin
    · exact ErrsR.error (by simp [NoEnc])
  constructor
  · unfold Embeddings.bucketToExplicit
    split
    · exact ErrsR.error (by simp [NoEnc])
    · exact ErrsR.error (by simp [NoEnc])
    · exact tail _
  · intro e' h'
    unfold Embeddings.bucketToExplicit at h'
    split at h'
    · cases h'
    · cases h'
    · obtain ⟨v, hv, h'⟩ := res_bind_inv h'
      have hv := hx.2 v hv
      split at h'
      · obtain ⟨_, _, h'⟩ := res_bind_inv h'
        obtain ⟨_, _, h'⟩ := res_bind_inv h'
        obtain ⟨_, _, h'⟩ := res_bind_inv h'
        split at h'
        · cases h'
        · obtain ⟨_, _, h'⟩ := res_bind_inv h'
          rw [new_vocab h']
          exact hv
      · cases h'

theorem embedding_noEnc {e : Embeddings K} (he : BuiltEmb e) {w : PyStr} (h : Scalars w) : ErrsR NoEnc (e.embedding w) := by
  refine neEnc fun hx => ?_
  have := ((C27_raises e he w).1.mp hx).2.2
  rw [scalars_any.mp h] at this
  cases this

theorem getItem_noEnc {e : Embeddings K} (he : BuiltEmb e) {w : PyStr} (h : Scalars w) : ErrsR NoEnc (e.getItem w) :=
  neEnc fun hx => (embedding_noEnc he h).ne (((C27_agree e w).2.2 _ (by simp)).mp hx)

theorem similarity_noEnc [Score K] {S : Sel K} (hS : S.Admissible) (e : Embeddings K) (q : List K) (k : Int)
    (skips : List PyStr) : ErrsR NoEnc (e.similarity S q k skips) := by
  have hslice : ∀ {α : Type} (xs : List α) (sl : PySlice), ErrsR NoEnc (npSlice xs sl) := by
    intro α xs sl x hx
    rw [(npSlice_err hx).1]; simp [NoEnc]
  have hpush : ∀ (sims : List K) (skip : List Nat) (is : List Nat) (heap : List (PyStr × K)),
      ErrsR NoEnc (pushAll S e.vocab.words sims skip heap is) := by
    intro sims skip is
    induction is with
    | nil => intro heap; exact ErrsR.ok _
    | cons i is ih =>
      intro heap
      unfold pushAll
      split
      · exact ih _
      · split
        · exact ih _
        · exact ErrsR.error (by simp [NoEnc])
  unfold Embeddings.similarity
  refine (slice_noEnc _ _).bind fun words => ErrsR.bind ?_ fun sims => ErrsR.bind ?_ fun part => (hslice _ _).bind fun _ =>
    (hpush _ _ _ _).bind fun _ => ErrsR.ok _
  · unfold Storage.dot
    split
    · split
      · exact ErrsR.error (by simp [NoEnc])
      · exact ErrsR.ok _
    · exact ErrsR.error (by simp [NoEnc])
  · generalize -k - ((e.vocab.skipIndices skips).length : Int) = kth
    refine neEnc fun hx => ?_
    by_cases h0 : sims = []
    · subst h0
      rcases hS.empty kth with h | h <;> rw [h] at hx <;> cases hx
    · by_cases hb : kth < -sims.length ∨ (sims.length : Int) ≤ kth
      · rw [hS.outOfBounds sims kth h0 hb] at hx; cases hx
      · have : ∃ j : Nat, j < sims.length ∧ (kth = j ∨ kth = j - sims.length) := by
          by_cases h1 : 0 ≤ kth
          · exact ⟨kth.toNat, by omega, by omega⟩
          · exact ⟨(kth + sims.length).toNat, by omega, by omega⟩
        obtain ⟨j, h1, h2⟩ := this
        obtain ⟨p, h3, _⟩ := hS.inBounds sims kth j h1 h2
        rw [h3] at hx; cases hx

theorem wordSimilarity_noEnc [Score K] {S : Sel K} (hS : S.Admissible) {e : Embeddings K} (he : BuiltEmb e) {w : PyStr}
    (hw : Scalars w) (k : Int) : ErrsR NoEnc (e.wordSimilarity S w k) := by
  unfold Embeddings.wordSimilarity
  refine (embedding_noEnc he hw).bind fun r => ?_
  cases r with
  | none => exact ErrsR.ok _
  | some v => exact (similarity_noEnc hS e v k _).bind fun _ => ErrsR.ok _

theorem analogy_noEnc [Score K] {S : Sel K} (hS : S.Admissible) {e : Embeddings K} (he : BuiltEmb e) {a b c : PyStr}
    (ha : Scalars a) (hb : Scalars b) (hc : Scalars c) (k : Int) (skip : Option (List PyStr)) :
    ErrsR NoEnc (e.analogy S a b c k skip) := by
  unfold Embeddings.analogy
  refine (embedding_noEnc he ha).bind fun a' => (embedding_noEnc he hb).bind fun b' => (embedding_noEnc he hc).bind fun c' => ?_
  split
  · exact (similarity_noEnc hS e _ k _).bind fun _ => ErrsR.ok _
  · exact ErrsR.ok _

/-- The answers of a loop are words of the vocabulary, and it does not end with `UnicodeEncodeError`. -/
def SafeAnswers (e : Embeddings K) (a : Answers K) : Prop :=
  (∀ x ∈ a.1, ∀ res, x.2 = some res → ∀ r ∈ res, r.1 ∈ e.vocab.words) ∧ a.2 ≠ .error .unicodeEncodeError

omit [NumOps K] in
theorem SafeAnswers.cons {e : Embeddings K} {a : Answers K} (h : SafeAnswers e a) {q : PyStr} {r : Option (List (PyStr × K))}
    (hr : ∀ res, r = some res → ∀ y ∈ res, y.1 ∈ e.vocab.words) : SafeAnswers e ((q, r) :: a.1, a.2) := by
  refine ⟨fun x hx res hres => ?_, h.2⟩
  rcases List.mem_cons.mp hx with rfl | hx
  · exact hr res hres
  · exact h.1 x hx res hres

omit [NumOps K] in
theorem lastLine_safe {e : Embeddings K} {stop : Option PyErr} (h : stop ≠ some .unicodeEncodeError) :
    SafeAnswers e (lastLine stop) := by
  cases stop with
  | none => exact ⟨by simp [lastLine], by simp [lastLine]⟩
  | some x =>
    refine ⟨by simp [lastLine], ?_⟩
    simp only [lastLine, ne_eq, Except.error.injEq]
    rintro rfl
    exact h rfl

theorem wordSimilarity_words [Score K] {S : Sel K} (hS : S.Admissible) {e : Embeddings K} (he : BuiltEmb e) {w : PyStr}
    {k : Int} {res : List (PyStr × K)} (h : e.wordSimilarity S w k = .ok (some res)) : ∀ r ∈ res, r.1 ∈ e.vocab.words := by
  unfold Embeddings.wordSimilarity at h
  obtain ⟨o, _, h⟩ := res_bind_inv h
  cases o with
  | none => cases h
  | some v =>
    obtain ⟨res', h1, h⟩ := res_bind_inv h
    cases h
    exact fun r hr => ((similarity_mem hS he h1).2 r hr).1

theorem analogy_words [Score K] {S : Sel K} (hS : S.Admissible) {e : Embeddings K} (he : BuiltEmb e) {a b c : PyStr}
    {k : Int} {skip : Option (List PyStr)} {res : List (PyStr × K)} (h : e.analogy S a b c k skip = .ok (some res)) :
    ∀ r ∈ res, r.1 ∈ e.vocab.words := by
  unfold Embeddings.analogy at h
  obtain ⟨a', _, h⟩ := res_bind_inv h
  obtain ⟨b', _, h⟩ := res_bind_inv h
  obtain ⟨c', _, h⟩ := res_bind_inv h
  split at h
  · obtain ⟨res', h1, h⟩ := res_bind_inv h
    cases h
    exact fun r hr => ((similarity_mem hS he h1).2 r hr).1
  · cases h

theorem similarLoop_safe [Score K] {S : Sel K} (hS : S.Admissible) {e : Embeddings K} (he : BuiltEmb e) (k : Int)
    {stop : Option PyErr} (h : stop ≠ some .unicodeEncodeError) {lines : List PyStr} (hl : ∀ l ∈ lines, Scalars l) :
    SafeAnswers e (similarLoop S e k stop lines) := by
  induction lines with
  | nil => exact lastLine_safe h
  | cons l ls ih =>
    have ih := ih fun x hx => hl x (List.mem_cons_of_mem _ hx)
    unfold similarLoop
    simp only
    split
    · exact ih
    · split
      · rename_i x hx
        refine ⟨by simp, ?_⟩
        simp only [ne_eq, Except.error.injEq]
        exact wordSimilarity_noEnc hS he ((hl l (by simp)).sub strip_mem) k x hx
      · rename_i r hr
        refine ih.cons fun res hres => ?_
        subst hres
        exact wordSimilarity_words hS he hr

theorem analogyLoop_safe [Score K] {S : Sel K} (hS : S.Admissible) {e : Embeddings K} (he : BuiltEmb e) (k : Int)
    (includes : List PyStr) {stop : Option PyErr} (h : stop ≠ some .unicodeEncodeError) {lines : List PyStr}
    (hl : ∀ l ∈ lines, Scalars l) : SafeAnswers e (analogyLoop S e k includes stop lines) := by
  induction lines with
  | nil => exact lastLine_safe h
  | cons l ls ih =>
    have ih := ih fun x hx => hl x (List.mem_cons_of_mem _ hx)
    unfold analogyLoop
    split
    · rename_i a b c hsp
      have hp : ∀ p ∈ splitWs (strip l), Scalars p := by
        intro p hp
        refine (hl l (by simp)).sub fun c hc => strip_mem c ?_
        unfold splitWs at hp
        exact pieces_mem p (List.mem_filter.mp hp).1 c hc
      rw [hsp] at hp
      split
      · rename_i x hx
        refine ⟨by simp, ?_⟩
        simp only [ne_eq, Except.error.injEq]
        exact analogy_noEnc hS he (hp a (by simp)) (hp b (by simp)) (hp c (by simp)) k _ x hx
      · rename_i r hr
        refine ih.cons fun res hres => ?_
        subst hres
        exact analogy_words hS he hr
    · exact ⟨by simp, by simp⟩

theorem select_noEnc {e : Embeddings K} (he : BuiltEmb e) (ign : Bool) (input : PyStr) {words : List PyStr}
    (hw : ∀ w ∈ words, Scalars w) : ErrsR NoEnc (selectEmbeddings e ign input words) ∧
      ∀ e', selectEmbeddings e ign input words = .ok e' → ScalarVocab e'.vocab := by
  have hrows : ∀ ws : List PyStr, (∀ w ∈ ws, Scalars w) → ErrsR NoEnc (selectRows e ign ws) := by
    intro ws
    induction ws with
    | nil => intro _; exact ErrsR.ok _
    | cons w ws ih =>
      intro h
      have ih := ih fun x hx => h x (List.mem_cons_of_mem _ hx)
      unfold selectRows
      split
      · exact (assignRow_errs noEnc_text _ _).bind fun _ => ih.bind fun _ => ErrsR.ok _
      · split
        · exact ih.bind fun _ => ErrsR.ok _
        · exact ErrsR.error (by simp [NoEnc])
      · rename_i x _ hx
        exact ErrsR.error (getItem_noEnc he (h w (by simp)) x hx)
  constructor
  · unfold selectEmbeddings
    refine (zerosShape_errs noEnc_text _ _).bind fun _ => (newVocab_errs noEnc_text _ _).bind' fun v hv =>
      (hrows _ ?_).bind fun _ => newEmb_errs noEnc_text _ _ _ _
    obtain ⟨_, rfl⟩ := Vocab.new_ok.mp hv
    exact hw
  · intro e' h
    unfold selectEmbeddings at h
    obtain ⟨_, _, h⟩ := res_bind_inv h
    obtain ⟨v, hv, h⟩ := res_bind_inv h
    obtain ⟨_, _, h⟩ := res_bind_inv h
    rw [new_vocab h]
    exact vocabNew_scalars hv hw (by intro ix h; cases h)

end

end FF
