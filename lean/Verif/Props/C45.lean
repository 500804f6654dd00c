import Verif.Lemmas.LoadBuilt
import Verif.Props.C01
import Verif.Props.C27
import Verif.Props.C48
import Verif.Props.C31
/-! C45: `ffp-select` writes exactly the representable requested words. -/

namespace FF

/-- `list(set(xs))`: the members in some order, without repetitions. -/
def SetEnum (enum : List PyStr → List PyStr) : Prop :=
  ∀ xs, (enum xs).Nodup ∧ ∀ w, w ∈ enum xs ↔ w ∈ xs

section
variable {K : Type} [NumOps K]

theorem getItem_length {e : Embeddings K} (hs : StorageWF e.storage) {w : PyStr} {v : List K}
    (h : e.getItem w = .ok v) : v.length = e.storage.nCols :=
  embedding_length hs ((C27_agree e w).2.1 v |>.mp h)

/-- What happens to one word. -/
theorem selectRows_ok {e : Embeddings K} (hs : StorageWF e.storage) {ign : Bool} {ws : List PyStr}
    {rows : List (List K)} : selectRows e ign ws = .ok rows ↔
      List.Forall₂ (fun w row => e.getItem w = .ok row ∨ (e.getItem w = .error .keyError ∧ ign = true ∧
        row = List.replicate e.storage.nCols NumOps.zero)) ws rows := by
  induction ws generalizing rows with
  | nil =>
    unfold selectRows
    constructor
    · intro h; cases h; exact .nil
    · intro h; cases h; rfl
  | cons w ws ih =>
    unfold selectRows
    cases hg : e.getItem w with
    | ok v =>
      dsimp only
      rw [assignRow_ok (getItem_length hs hg), res_bind_ok]
      constructor
      · intro h
        obtain ⟨rest, h1, h⟩ := res_bind_inv h
        cases h
        exact .cons (Or.inl hg) (ih.mp h1)
      · intro h
        cases h with
        | cons h1 h2 =>
          rw [ih.mpr h2, res_bind_ok]
          rcases h1 with h1 | ⟨h1, _⟩
          · rw [hg] at h1; cases h1; rfl
          · rw [hg] at h1; cases h1
    | error x =>
      by_cases hx : x = .keyError
      · subst hx
        dsimp only
        cases ign with
        | true =>
          rw [if_pos rfl]
          constructor
          · intro h
            obtain ⟨rest, h1, h⟩ := res_bind_inv h
            cases h
            exact .cons (Or.inr ⟨hg, rfl, rfl⟩) (ih.mp h1)
          · intro h
            cases h with
            | cons h1 h2 =>
              rw [ih.mpr h2, res_bind_ok]
              rcases h1 with h1 | ⟨_, _, rfl⟩
              · rw [hg] at h1; cases h1
              · rfl
        | false =>
          constructor
          · intro h; cases h
          · intro h
            cases h with
            | cons h1 h2 =>
              rcases h1 with h1 | ⟨_, h1, _⟩
              · rw [hg] at h1; cases h1
              · cases h1
      · constructor
        · intro h
          cases x <;> first | cases h | exact absurd rfl hx
        · intro h
          cases h with
          | cons h1 h2 =>
            rcases h1 with h1 | ⟨h1, _⟩
            · rw [hg] at h1; cases h1
            · rw [hg] at h1; cases h1; exact absurd rfl hx

theorem selectEmbeddings_ok {e e' : Embeddings K} (he : BuiltEmb e) {ign : Bool} {input : PyStr}
    {words : List PyStr} (h : selectEmbeddings e ign input words = .ok e') :
    words.Nodup ∧ ∃ rows, selectRows e ign words = .ok rows ∧ BuiltEmb e' ∧
      e'.vocab = ⟨words, enumItems words, none⟩ ∧ e'.norms = none ∧
      e'.storage = .nd ⟨e.storage.nCols, rows⟩ ∧
      e'.metadata = some ((ascii "source_embeddings".toList, .str input) ::
        (match e.metadata with
          | none => []
          | some m => [(ascii "source_metadata".toList, .table m)])) := by
  unfold selectEmbeddings at h
  obtain ⟨shape, h0, h⟩ := res_bind_inv h
  obtain ⟨v, h1, h⟩ := res_bind_inv h
  obtain ⟨rows, h2, h⟩ := res_bind_inv h
  obtain ⟨hn, hv⟩ := Vocab.new_ok.mp h1
  obtain ⟨hb, _, _⟩ := vocabNew_built h1 (fun ix h => by cases h)
  obtain ⟨he', _⟩ := embNew_iff.mp h
  subst hv
  refine ⟨hn, rows, h2, ?_, ?_⟩
  · rw [he'] at h ⊢
    have h3 := (selectRows_ok he.storage).mp h2
    refine ⟨hb, ⟨?_, ?_⟩, h⟩
    swap
    · obtain ⟨hz1, hz2, hz3⟩ := zerosShape_iff.mp h0
      show ShapeOk rows.length e.storage.nCols
      have hl := h3.length_eq
      rw [← hl, show words.length = shape.1 by exact_mod_cast hz1,
        show e.storage.nCols = shape.2 by exact_mod_cast hz2]
      exact hz3
    intro r hr
    obtain ⟨w, _, hw⟩ := forall₂_right h3 hr
    rcases hw with hw | ⟨_, _, rfl⟩
    · exact getItem_length he.storage hw
    · simp
  · rw [he']
    exact ⟨rfl, rfl, rfl, rfl⟩

theorem embedding_simple {e : Embeddings K} {words : List PyStr} {c : Nat} {rows : List (List K)}
    (hv : e.vocab = ⟨words, enumItems words, none⟩) (hb : BuiltVocab e.vocab) (hn : e.norms = none)
    (hs : e.storage = .nd ⟨c, rows⟩) :
    (∀ (i : Nat) w row, words[i]? = some w → rows[i]? = some row → e.embedding w = .ok (some row)) ∧
    ∀ w, w ∉ words → e.embedding w = .ok none := by
  have hget : ∀ w i, Dict.get? e.vocab.index w = some i ↔ words[i]? = some w := by
    intro w i
    have := hb.get (w := w) (i := i)
    rw [this, hv]
  have hsub : e.vocab.sub = none := by rw [hv]
  refine ⟨fun i w row hw hr => ?_, fun w hw => ?_⟩
  · unfold Embeddings.embedding Vocab.idx Embeddings.embed
    rw [hsub]
    simp only [(hget w i).mpr hw, hn, hs, res_bind_ok, Storage.getOne, npGet_nat.mpr hr]
    rfl
  · unfold Embeddings.embedding Vocab.idx
    rw [hsub]
    cases hg : Dict.get? e.vocab.index w with
    | none => rfl
    | some i => exact absurd (List.mem_of_getElem? ((hget w i).mp hg)) hw

/-- Whatever `ffp-select` builds from a list of distinct words: its words are exactly those, every
representable one has the embedding it has in the source, and no other word has one.  (Missing:
unrepresentable words are not left out, see `C45_ignore_refuted`.) -/
theorem C45_selected_partial (e e' : Embeddings K) (he : BuiltEmb e) (ign : Bool) (input : PyStr)
    (words : List PyStr) (h : selectEmbeddings e ign input words = .ok e') :
    BuiltEmb e' ∧ e'.vocab.words = words ∧
    (∀ w ∈ words, ∀ v, e.embedding w = .ok (some v) → e'.embedding w = .ok (some v)) ∧
    ∀ w, w ∉ words → e'.embedding w = .ok none := by
  obtain ⟨_, rows, h1, hb, hv, hn, hs, _⟩ := selectEmbeddings_ok he h
  have h2 := (selectRows_ok he.storage).mp h1
  obtain ⟨h3, h4⟩ := embedding_simple hv hb.vocab hn hs
  refine ⟨hb, by rw [hv], fun w hw v hev => ?_, h4⟩
  obtain ⟨i, hi, hwi⟩ := List.mem_iff_getElem.mp hw
  have hl := h2.length_eq
  have hr := (List.forall₂_iff_get.mp h2).2 i hi (by omega)
  simp only [List.get_eq_getElem, hwi] at hr
  have hgv := ((C27_agree e w).2.1 v).mpr hev
  have hrow : rows[i]? = some v := by
    rw [List.getElem?_eq_getElem (by omega)]
    rcases hr with hr | ⟨hr, _⟩
    · rw [hgv] at hr; cases hr; rfl
    · rw [hgv] at hr; cases hr
  exact h3 i w v (by rw [List.getElem?_eq_getElem hi, hwi]) hrow

/-- Without `--ignore_unk`, if no lookup raises anything but `KeyError` and numpy has arrays of the
shape: the command succeeds iff every word is representable, and otherwise it exits. -/
theorem C45_strict (e : Embeddings K) (he : BuiltEmb e) (input : PyStr) (words : List PyStr)
    (hn : words.Nodup) (hsh : ShapeOk words.length e.storage.nCols)
    (ho : ∀ w ∈ words, ∃ o, e.embedding w = .ok o) :
    ((∃ e', selectEmbeddings e false input words = .ok e') ↔
      ∀ w ∈ words, ∃ v, e.embedding w = .ok (some v)) ∧
    (selectEmbeddings e false input words = .error .systemExit ↔
      ∃ w ∈ words, e.embedding w = .ok none) := by
  have hstep : ∀ ws : List PyStr, (∀ w ∈ ws, ∃ o, e.embedding w = .ok o) →
      (∃ rows, selectRows e false ws = .ok rows ∧ ∀ w ∈ ws, ∃ v, e.embedding w = .ok (some v)) ∨
      (selectRows e false ws = .error .systemExit ∧ ∃ w ∈ ws, e.embedding w = .ok none) := by
    intro ws
    induction ws with
    | nil => exact fun _ => Or.inl ⟨[], rfl, by simp⟩
    | cons w ws ih =>
      intro hws
      obtain ⟨o, hw⟩ := hws w (by simp)
      unfold selectRows
      cases o with
      | none =>
        rw [((C27_agree e w).1).mpr hw]
        exact Or.inr ⟨rfl, w, by simp, hw⟩
      | some v =>
        have hg := ((C27_agree e w).2.1 v).mpr hw
        rw [hg]
        dsimp only
        rw [assignRow_ok (getItem_length he.storage hg), res_bind_ok]
        rcases ih (fun x hx => hws x (List.mem_cons_of_mem _ hx)) with ⟨rows, h1, h2⟩ | ⟨h1, x, hx, h2⟩
        · rw [h1]
          refine Or.inl ⟨v :: rows, rfl, ?_⟩
          intro x hx
          rcases List.mem_cons.mp hx with rfl | hx
          · exact ⟨v, hw⟩
          · exact h2 x hx
        · rw [h1]
          exact Or.inr ⟨rfl, x, List.mem_cons_of_mem _ hx, h2⟩
  have hvn : Vocab.new words none = .ok ⟨words, enumItems words, none⟩ := Vocab.new_ok.mpr ⟨hn, rfl⟩
  rcases hstep words ho with ⟨rows, h1, h2⟩ | ⟨h1, h2⟩
  · have hl := ((selectRows_ok he.storage).mp h1).length_eq
    have hok : ∃ e', selectEmbeddings e false input words = .ok e' := by
      unfold selectEmbeddings
      rw [zerosShape_ok hsh, res_bind_ok, hvn, res_bind_ok]
      dsimp only
      rw [h1, res_bind_ok]
      refine ⟨_, embNew_iff.mpr ⟨rfl, ?_, fun n h => by cases h⟩⟩
      have hlen := (vocabNew_built hvn (fun ix h => by cases h)).1.len
      simp only [Storage.nRows, Vocab.upperBound]
      rw [hlen, hl]
    refine ⟨⟨fun _ => h2, fun _ => hok⟩, fun h => ?_, fun ⟨w, hw, h⟩ => ?_⟩
    · obtain ⟨e', he'⟩ := hok; rw [he'] at h; cases h
    · obtain ⟨v, hv⟩ := h2 w hw; rw [hv] at h; cases h
  · have hex : selectEmbeddings e false input words = .error .systemExit := by
      unfold selectEmbeddings
      rw [zerosShape_ok hsh, res_bind_ok, hvn, res_bind_ok]
      dsimp only
      rw [h1]
      rfl
    refine ⟨⟨fun ⟨e', h⟩ => ?_, fun h => ?_⟩, fun _ => h2, fun _ => hex⟩
    · rw [hex] at h; cases h
    · obtain ⟨w, hw, h3⟩ := h2
      obtain ⟨v, hv⟩ := h w hw
      rw [hv] at h3; cases h3

/-- The claim fails with `--ignore_unk`: an unrepresentable word is not skipped, it becomes a word
of the result with a zero embedding. -/
theorem C45_ignore_refuted (e e' : Embeddings K) (he : BuiltEmb e) (input : PyStr)
    (words : List PyStr) (h : selectEmbeddings e true input words = .ok e') (w : PyStr)
    (hw : w ∈ words) (hu : e.embedding w = .ok none) :
    w ∈ e'.vocab.words ∧
    e'.embedding w = .ok (some (List.replicate e.storage.nCols NumOps.zero)) := by
  obtain ⟨_, rows, h1, hb, hv, hn, hs, _⟩ := selectEmbeddings_ok he h
  have h2 := (selectRows_ok he.storage).mp h1
  obtain ⟨h3, h4⟩ := embedding_simple hv hb.vocab hn hs
  refine ⟨by rw [hv]; exact hw, ?_⟩
  obtain ⟨i, hi, hwi⟩ := List.mem_iff_getElem.mp hw
  have hl := h2.length_eq
  have hr := (List.forall₂_iff_get.mp h2).2 i hi (by omega)
  simp only [List.get_eq_getElem, hwi] at hr
  have hgk := ((C27_agree e w).1).mpr hu
  refine h3 i w _ (by rw [List.getElem?_eq_getElem hi, hwi]) ?_
  rw [List.getElem?_eq_getElem (by omega)]
  rcases hr with hr | ⟨_, _, hr⟩
  · rw [hgk] at hr; cases hr
  · rw [hr]

end

section
variable [NumOps F32] [NumText F32]

/-- From file to file: after a successful run, loading the output gives embeddings whose words are
the stripped lines of the word list; every representable one has its source embedding; no other
file has changed.  (Missing as in `C45_selected_partial`.) -/
theorem C45_files_partial [TextIO] (T : Toml) (enum : List PyStr → List PyStr)
    (hen : SetEnum enum) (f : Format) (input output wordList : PyStr) (ign lossy mmap : Bool)
    (fs fs' : FS)
    (hT : ∀ m, TomlOk T (some ((ascii "source_embeddings".toList, .str input) :: m)))
    (h : selectMain T enum f input output wordList ign lossy mmap fs = (.ok (), fs')) :
    ∃ e e' ws lines, readFile input (f.load T lossy mmap) fs = .ok e ∧
      fs wordList = some ws ∧ Yields lossy ws lines none ∧
      readFile output (Rd.run (loadFinalfusion T false)) fs' = .ok e' ∧
      (∀ w, w ∈ e'.vocab.words ↔ ∃ line ∈ lines, strip line = w) ∧
      (∀ line ∈ lines, ∀ v, e.embedding (strip line) = .ok (some v) →
        e'.embedding (strip line) = .ok (some v)) ∧
      (ign = false → ∀ line ∈ lines, ∃ v, e.embedding (strip line) = .ok (some v)) ∧
      ∀ p, p ≠ output → fs' p = fs p := by
  unfold selectMain at h
  cases h1 : readFile input (f.load T lossy mmap) fs with
  | error x => rw [h1] at h; cases h
  | ok e =>
  rw [h1] at h
  simp only [res_bind_ok] at h
  unfold readFile at h
  cases hws : fs wordList with
  | none => rw [hws] at h; cases h
  | some ws =>
  rw [hws] at h
  obtain ⟨lines, stop, hy⟩ := yields_total lossy ws
  obtain ⟨lines', hl', he'⟩ := textLines_yields hy
  simp only [hl'] at h
  cases stop with
  | some x => cases h
  | none =>
  simp only [Lines.all, res_bind_ok, ended_strip he'] at h
  clear hl' he' lines'
  cases h3 : selectEmbeddings e ign input (enum (lines.map strip)) with
  | error x => rw [h3] at h; cases h
  | ok e' =>
  rw [h3] at h
  simp only at h
  obtain ⟨bs, hbs, rfl⟩ := writeFile_ok h
  have he : BuiltEmb e := by
    unfold readFile at h1
    split at h1
    · cases h1
    · exact formatLoad_built h1
  obtain ⟨hb, hw, hsel, hno⟩ := C45_selected_partial e e' he ign input _ h3
  obtain ⟨_, rows, hrows, _, hv, _, _, hm⟩ := selectEmbeddings_ok he h3
  obtain ⟨hnd, hmem⟩ := hen (lines.map strip)
  have hmem' : ∀ line ∈ lines, strip line ∈ enum (lines.map strip) := fun line hl =>
    (hmem _).mpr (List.mem_map_of_mem hl)
  refine ⟨e, e', ws, lines, rfl, rfl, hy, ?_, ?_, ?_, ?_, fun p hp => if_neg hp⟩
  · unfold readFile
    simp only [if_true]
    refine C01_roundtrip_eq T e' bs hb ?_ hbs (fun ix h => by rw [hv] at h; cases h)
    rw [hm]
    exact hT _
  · intro w
    rw [hw, hmem, List.mem_map]
  · intro line hl v hv
    exact hsel _ (hmem' line hl) v hv
  · intro hi line hl
    subst hi
    obtain ⟨i, hi, hwi⟩ := List.mem_iff_getElem.mp (hmem' line hl)
    have h5 := (selectRows_ok he.storage).mp hrows
    have hr := (List.forall₂_iff_get.mp h5).2 i hi (by rw [← h5.length_eq]; exact hi)
    simp only [List.get_eq_getElem, hwi] at hr
    rcases hr with hr | ⟨_, hr, _⟩
    · exact ⟨_, ((C27_agree e _).2.1 _).mp hr⟩
    · cases hr

end

/-! ### The hypotheses can be met -/

/-- `a` and `c` are known, `z` is not. -/
example : BuiltEmb Sample.embSim ∧
    (∃ e', selectEmbeddings Sample.embSim false [102] [[99], [97]] = .ok e') ∧
    Sample.embSim.embedding [122] = .ok none ∧
    (∃ e', selectEmbeddings Sample.embSim true [102] [[99], [122], [97]] = .ok e') ∧
    Sample.errOf (selectEmbeddings Sample.embSim false [102] [[99], [122]]) = some .systemExit :=
  ⟨Sample.builtEmbSim, Sample.ok_of_errOf (by decide +kernel), by decide +kernel,
    Sample.ok_of_errOf (by decide +kernel), by decide +kernel⟩

/-- Enumerations of a set exist. -/
example : SetEnum List.dedup := fun xs => ⟨List.nodup_dedup xs, fun _ => List.mem_dedup⟩

/-- A TOML library that writes the metadata of `ffp-select`. -/
def Sample.selToml : Toml where
  dumps m := match m with
    | [(k, .str s), (k', .table [])] =>
      if k = ascii "source_embeddings".toList ∧ k' = ascii "source_metadata".toList then .ok s
      else .error .typeError
    | [] => .ok []
    | _ => .error .typeError
  loads s := .ok (if s = [] then [] else [(ascii "source_embeddings".toList, .str s),
    (ascii "source_metadata".toList, .table [])])

/-- A run from file to file: the source is the file `s`, the words are `ß` and `a`. -/
example : (@selectMain Sample.f32Ops Sample.f32Text Sample.textIO Sample.selToml List.dedup .finalfusion
    [115] [111] [119] false false false (fun p =>
      if p = [115] then some ((Sample.embSimple.write Sample.selToml).file).2
      else if p = [119] then some [0xC3, 0x9F, 10, 32, 97, 13, 10, 97] else none)).1 = .ok () := by
  decide +kernel

example : ∀ m, TomlOk Sample.selToml (some ((ascii "source_embeddings".toList, .str [115]) :: m)) := by
  intro m m' s h hd
  cases h
  match m, hd with
  | [(k', .table [])], hd =>
    simp only [Sample.selToml] at hd ⊢
    split at hd
    · rename_i hk
      cases hd
      rw [if_neg (by decide), hk.2]
    · cases hd
  | [], hd => cases hd
  | [(_, .int _)], hd => cases hd
  | [(_, .float _)], hd => cases hd
  | [(_, .bool _)], hd => cases hd
  | [(_, .str _)], hd => cases hd
  | [(_, .list _)], hd => cases hd
  | [(_, .table (_ :: _))], hd => cases hd
  | (_, .int _) :: _ :: _, hd => cases hd
  | (_, .float _) :: _ :: _, hd => cases hd
  | (_, .bool _) :: _ :: _, hd => cases hd
  | (_, .str _) :: _ :: _, hd => cases hd
  | (_, .list _) :: _ :: _, hd => cases hd
  | (_, .table []) :: _ :: _, hd => cases hd
  | (_, .table (_ :: _)) :: _ :: _, hd => cases hd

end FF
