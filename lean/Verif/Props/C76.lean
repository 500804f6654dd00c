import Verif.Lemmas.ArgsAny
import Verif.Props.C74
/-!
# C76: any command line at all

Whatever words a tool is called with, it ends while it reads them, or it does its work with files that are named by words of the
command line, in the order of these words.  Only if there are two `--` it may also end with a `TypeError` (`ffp-convert -- in --`),
before any file is changed.  Nothing is changed but the file that one of the words names, and nothing that looks like an option is
passed over.
-/

namespace FF

/-- The word at the beginning of a long option is not enough: there are two of them in every parser. -/
theorem two_long {acts : List Act} {f g : PyStr} {a b : Act} (ha : a ∈ acts) (hf : f ∈ a.flags) (hb : b ∈ acts) (hg : g ∈ b.flags)
    (hne : f ≠ g) (h1 : [45, 45] <+: f) (h2 : [45, 45] <+: g) :
    ∃ f g, f ≠ g ∧ (∃ a, IsFlag acts f a) ∧ (∃ b, IsFlag acts g b) ∧ [45, 45] <+: f ∧ [45, 45] <+: g :=
  ⟨f, g, hne, ⟨a, ha, hf⟩, ⟨b, hb, hg⟩, h1, h2⟩

theorem forall₂_two {α β : Type} {R : α → β → Prop} {a b : α} {vs : List β} (h : List.Forall₂ R [a, b] vs) :
    ∃ x y, vs = [x, y] ∧ R a x ∧ R b y := by
  rcases h with _ | ⟨h1, _ | ⟨h2, _ | _⟩⟩
  exact ⟨_, _, rfl, h1, h2⟩

theorem forall₂_three {α β : Type} {R : α → β → Prop} {a b c : α} {vs : List β} (h : List.Forall₂ R [a, b, c] vs) :
    ∃ x y z, vs = [x, y, z] ∧ R a x ∧ R b y ∧ R c z := by
  rcases h with _ | ⟨h1, _ | ⟨h2, _ | ⟨h3, _ | _⟩⟩⟩
  exact ⟨_, _, _, rfl, h1, h2, h3⟩

/-- A required argument without a word: there are two `--`. -/
theorem posVal_none {argv : List PyStr} {d : PyStr} {v : Val} (h : PosVal argv (positional d) v) (hv : valWords v = []) :
    2 ≤ argv.count [45, 45] := by
  rcases h with ⟨s, rfl⟩ | ⟨h, -⟩ | h
  · cases hv
  · cases h
  · exact h

section
variable [NumOps F32] [NumText F32] [TextIO]

/-- `ffp-convert` with any words: it exits, it fails and changes nothing, or it converts one word to a later one. -/
theorem C76_convert [Remap] (T : Toml) (fs : FS) (argv : List PyStr) :
    (∃ x, convertCli T argv fs = .error x) ∨
    (2 ≤ argv.count [45, 45] ∧ ∃ x, convertCli T argv fs = .ok (.error x, fs)) ∨
    ∃ src dst input output lossy mmap, [input, output].Sublist argv ∧
      convertCli T argv fs = .ok (convertMain T src dst input output lossy mmap fs) := by
  rcases h1 : parseArgs convertParser argv with x | ns
  · left
    exact ⟨x, by rw [convertCli, h1]; rfl⟩
  right
  obtain ⟨h2, ⟨vs, h3, h4⟩, -⟩ := parse_any sound_convert (by decide +kernel) h1
  obtain ⟨v1, v2, rfl, ⟨hin, p1⟩, hout, p2⟩ := forall₂_two (a := positional (ascii "input".toList)) (b := positional (ascii "output".toList)) h3
  obtain ⟨src, -, s2⟩ := any_format (P := fun _ => True)
    (a := formatArg (ascii "f".toList) (ascii "from".toList) formatNames Format.word2vec.name) rfl rfl rfl
    (fun s hs => (formatNames_ok s hs).imp fun _ h => ⟨trivial, h⟩) trivial rfl (h2 _ (by decide +kernel) (by decide +kernel) (by decide +kernel))
  obtain ⟨dst, -, t2⟩ := any_format (P := fun _ => True)
    (a := formatArg (ascii "t".toList) (ascii "to".toList) formatNames Format.finalfusion.name) rfl rfl rfl
    (fun s hs => (formatNames_ok s hs).imp fun _ h => ⟨trivial, h⟩) trivial rfl (h2 _ (by decide +kernel) (by decide +kernel) (by decide +kernel))
  have hin' := pathOf_any hin
  have hout' := pathOf_any hout
  simp only [positional, formatArg] at hin' hout' s2 t2
  rcases hin' with ⟨hin', e1⟩ | ⟨input, rfl, e1, hin'⟩
  · refine Or.inl ⟨posVal_none p1 e1, .typeError, ?_⟩
    rw [convertCli, h1]
    simp only [ex_bind_ok, hin', s2]
    rfl
  · rcases hout' with ⟨hout', e2⟩ | ⟨output, rfl, e2, hout'⟩
    · refine Or.inl ⟨posVal_none p2 e2, ?_⟩
      rw [convertCli, h1]
      simp only [ex_bind_ok, hin', hout', s2, t2]
      rcases readFile input _ fs with x | e <;> exact ⟨_, rfl⟩
    · refine Or.inr ⟨src, dst, input, output, flagOf ns (ascii "lossy".toList), flagOf ns (ascii "mmap".toList), ?_, ?_⟩
      · simpa [valWords] using h4
      · rw [convertCli, h1]
        simp only [ex_bind_ok, hin', hout', s2, t2, convertMain]
        rfl

/-- `ffp-convert -- in --` fails since there is no output: the second `--` stands for an empty list. -/
example [Remap] (T : Toml) (fs : FS) : ∃ x, convertCli T [ascii "--".toList, ascii "in".toList, ascii "--".toList] fs = .ok (.error x, fs) := by
  have h1 : parseArgs convertParser [ascii "--".toList, ascii "in".toList, ascii "--".toList] =
      .ok [(ascii "input".toList, .str (ascii "in".toList)), (ascii "output".toList, .list []),
        (ascii "from".toList, .str Format.word2vec.name), (ascii "to".toList, .str Format.finalfusion.name),
        (ascii "lossy".toList, .bool false), (ascii "mmap".toList, .bool false)] := by decide +kernel
  rw [convertCli, h1]
  simp only [ex_bind_ok]
  generalize formatOf _ (ascii "from".toList) = f
  generalize pathOf _ (ascii "input".toList) = p
  have hout : pathOf [(ascii "input".toList, .str (ascii "in".toList)), (ascii "output".toList, .list []),
        (ascii "from".toList, .str Format.word2vec.name), (ascii "to".toList, .str Format.finalfusion.name),
        (ascii "lossy".toList, .bool false), (ascii "mmap".toList, .bool false)] (ascii "output".toList) = .error .typeError := by decide +kernel
  rw [hout]
  rcases f with x | f
  · exact ⟨x, rfl⟩
  · rcases p with x | p
    · exact ⟨x, rfl⟩
    · simp only
      rcases readFile p _ fs with x | e
      · exact ⟨x, rfl⟩
      · simp only
        rcases formatOf _ (ascii "to".toList) with x | f'
        · exact ⟨x, rfl⟩
        · exact ⟨_, rfl⟩

/-- `ffp-bucket-to-explicit` with any words -/
theorem C76_bucket_to_explicit (T : Toml) (fs : FS) (argv : List PyStr) :
    (∃ x, bucketToExplicitCli T argv fs = .error x) ∨
    (2 ≤ argv.count [45, 45] ∧ ∃ x, bucketToExplicitCli T argv fs = .ok (.error x, fs)) ∨
    ∃ src input output lossy mmap, (src = .finalfusion ∨ src = .fasttext) ∧ [input, output].Sublist argv ∧
      bucketToExplicitCli T argv fs = .ok (bucketToExplicitMain T src input output lossy mmap fs) := by
  rcases h1 : parseArgs bucketParser argv with x | ns
  · left
    exact ⟨x, by rw [bucketToExplicitCli, h1]; rfl⟩
  right
  obtain ⟨h2, ⟨vs, h3, h4⟩, -⟩ := parse_any sound_bucket (by decide +kernel) h1
  obtain ⟨v1, v2, rfl, ⟨hin, p1⟩, hout, p2⟩ := forall₂_two (a := positional (ascii "input".toList)) (b := positional (ascii "output".toList)) h3
  obtain ⟨src, s1, s2⟩ := any_format
    (a := formatArg (ascii "f".toList) (ascii "from".toList) [Format.finalfusion.name, Format.fasttext.name] Format.finalfusion.name) rfl rfl rfl
    bucketNames_ok (Or.inl rfl) rfl (h2 _ (by decide +kernel) (by decide +kernel) (by decide +kernel))
  have hin' := pathOf_any hin
  have hout' := pathOf_any hout
  simp only [positional, formatArg] at hin' hout' s2
  rcases hin' with ⟨hin', e1⟩ | ⟨input, rfl, e1, hin'⟩
  · refine Or.inl ⟨posVal_none p1 e1, .typeError, ?_⟩
    rw [bucketToExplicitCli, h1]
    simp only [ex_bind_ok, loadArgs, hin', s2]
    rfl
  · rcases hout' with ⟨hout', e2⟩ | ⟨output, rfl, e2, hout'⟩
    · refine Or.inl ⟨posVal_none p2 e2, ?_⟩
      rw [bucketToExplicitCli, h1]
      simp only [ex_bind_ok, loadArgs, hin', hout', s2]
      rcases readFile input _ fs with x | e
      · exact ⟨_, rfl⟩
      · simp only
        rcases e.bucketToExplicit with x | e' <;> exact ⟨_, rfl⟩
    · refine Or.inr ⟨src, input, output, flagOf ns (ascii "lossy".toList), flagOf ns (ascii "mmap".toList), s1, ?_, ?_⟩
      · simpa [valWords] using h4
      · rw [bucketToExplicitCli, h1]
        simp only [ex_bind_ok, loadArgs, hin', hout', s2, bucketToExplicitMain]
        rcases readFile input _ fs with x | e
        · rfl
        · simp only
          rcases e.bucketToExplicit with x | e' <;> rfl

/-- `ffp-select` with any words: the word list is the third word, or the standard input. -/
theorem C76_select (T : Toml) (enum : List PyStr → List PyStr) (stdin : Bytes) (fs : FS) (argv : List PyStr) :
    (∃ x, selectCli T enum stdin argv fs = .error x) ∨
    (2 ≤ argv.count [45, 45] ∧ ∃ x, selectCli T enum stdin argv fs = .ok (.error x, fs)) ∨
    ∃ f input output ignore lossy mmap,
      (∃ q, [input, output, q].Sublist argv ∧
        selectCli T enum stdin argv fs = .ok (selectMain T enum f input output q ignore lossy mmap fs)) ∨
      ([input, output].Sublist argv ∧ ∀ q, q ≠ input → q ≠ output →
        selectCli T enum stdin argv fs =
          .ok ((selectMain T enum f input output q ignore lossy mmap (withFile fs q stdin)).1, fun p =>
            if p = q then fs q else (selectMain T enum f input output q ignore lossy mmap (withFile fs q stdin)).2 p)) := by
  rcases h1 : parseArgs selectParser argv with x | ns
  · left
    exact ⟨x, by rw [selectCli, h1]; rfl⟩
  right
  obtain ⟨h2, ⟨vs, h3, h4⟩, -⟩ := parse_any sound_select (by decide +kernel) h1
  obtain ⟨v1, v2, v3, rfl, ⟨hin, p1⟩, ⟨hout, p2⟩, hq, p3⟩ := forall₂_three (a := positional (ascii "input".toList))
    (b := positional (ascii "output".toList)) (c := optPositional (ascii "words".toList)) h3
  obtain ⟨f, -, s2⟩ := any_format (P := fun _ => True)
    (a := formatArg (ascii "f".toList) (ascii "format".toList) formatNames Format.finalfusion.name) rfl rfl rfl
    (fun s hs => (formatNames_ok s hs).imp fun _ h => ⟨trivial, h⟩) trivial rfl (h2 _ (by decide +kernel) (by decide +kernel) (by decide +kernel))
  have hin' := pathOf_any hin
  have hout' := pathOf_any hout
  simp only [positional, formatArg, optPositional] at hin' hout' s2 hq
  rcases hin' with ⟨hin', e1⟩ | ⟨input, rfl, e1, hin'⟩
  · refine Or.inl ⟨posVal_none p1 e1, .typeError, ?_⟩
    rw [selectCli, h1]
    simp only [ex_bind_ok, loadArgs, hin', s2]
    rfl
  rcases hout' with ⟨hout', e2⟩ | ⟨output, rfl, e2, hout'⟩
  · refine Or.inl ⟨posVal_none p2 e2, ?_⟩
    rw [selectCli, h1]
    simp only [ex_bind_ok, hout', ex_pure]
    generalize (loadArgs T ns _ _ fs >>= _ : Res (Embeddings F32)) = r
    rcases r with x | e <;> exact ⟨_, rfl⟩
  have hother : openOf ns (ascii "words".toList) stdin fs = .error .typeError → 2 ≤ argv.count [45, 45] →
      2 ≤ argv.count [45, 45] ∧ ∃ x, selectCli T enum stdin argv fs = .ok (.error x, fs) := by
    intro ho hc
    refine ⟨hc, ?_⟩
    rw [selectCli, h1]
    simp only [ex_bind_ok, ho, ex_bind_error, ex_pure]
    generalize loadArgs T ns _ _ fs = r
    rcases r with x | e <;> exact ⟨_, rfl⟩
  have hcount : (∀ s, v3 ≠ .str s) → v3 ≠ .int 0 → 2 ≤ argv.count [45, 45] := by
    intro a1 a2
    rcases p3 with ⟨s, h⟩ | ⟨-, h⟩ | h
    · exact absurd h (a1 s)
    · exact absurd h a2
    · exact h
  rcases v3 with q | i | b | xs
  · refine Or.inr ⟨f, input, output, flagOf ns (ascii "ignore_unk".toList), flagOf ns (ascii "lossy".toList),
      flagOf ns (ascii "mmap".toList), Or.inl ⟨q, by simpa [valWords] using h4, ?_⟩⟩
    have hop := openOf_file hq stdin fs
    rw [selectCli, h1]
    simp only [ex_bind_ok, loadArgs, hin', hout', hop, s2, selectMain, readFile]
    rcases fs input with _ | bs
    · rfl
    · simp only
      rcases f.load T _ _ bs with x | e
      · rfl
      · simp only [ex_bind_ok]
        rcases fs q with _ | bs' <;> rfl
  · by_cases hi : i = 0
    · subst hi
      refine Or.inr ⟨f, input, output, flagOf ns (ascii "ignore_unk".toList), flagOf ns (ascii "lossy".toList),
      flagOf ns (ascii "mmap".toList), Or.inr ⟨by simpa [valWords] using h4, fun q hq1 hq2 => ?_⟩⟩
      have hop := openOf_stdin hq stdin fs
      rw [selectCli, h1]
      simp only [ex_bind_ok, loadArgs, hin', hout', hop, s2, selectMain, readFile_withFile hq1.symm]
      have hw : ∀ load : Bytes → Res (List PyStr), readFile q load (withFile fs q stdin) = load stdin := by
        intro load
        rw [readFile, withFile_self]
      simp only [hw]
      have hfs : fs = fun p => if p = q then fs q else withFile fs q stdin p := by
        funext p
        by_cases h : p = q
        · simp [h]
        · simp [h, withFile]
      rcases readFile input _ fs with x | e
      · simp only [ex_bind_error, ex_pure]
        rw [← hfs]
      · simp only [ex_bind_ok]
        rcases (textLines _ stdin).all with x | ls
        · simp only [ex_bind_error, ex_pure]
          rw [← hfs]
        · simp only [ex_bind_ok]
          rcases selectEmbeddings e _ input _ with x | e'
          · simp only [ex_pure]
            rw [← hfs]
          · simp only [ex_pure, writeFile]
            congr 2
            funext p
            by_cases h : p = q
            · simp [h, hq2]
            · simp [h, withFile]
    · refine Or.inl (hother ?_ (hcount (by simp) (by simpa using hi)))
      rw [openOf, hq]
      rcases i with (_ | n) | n
      · exact absurd rfl hi
      · rfl
      · rfl
  · exact Or.inl (hother (by rw [openOf, hq]) (hcount (by simp) (by simp)))
  · exact Or.inl (hother (by rw [openOf, hq]) (hcount (by simp) (by simp)))

/-- `ffp-similar` with any words: the queries are in the second word or in the standard input. -/
theorem C76_similar (T : Toml) (S : Sel F32) (stdin : Bytes) (fs : FS) (argv : List PyStr) :
    (∃ x, similarCli T S stdin argv fs = .error x) ∨
    (2 ≤ argv.count [45, 45] ∧ ∃ x, similarCli T S stdin argv fs = .ok ([], .error x)) ∨
    ∃ f embeddings k lossy mmap,
      (∃ q, [embeddings, q].Sublist argv ∧
        similarCli T S stdin argv fs = .ok (similarMain T S f embeddings q k lossy mmap fs)) ∨
      ([embeddings].Sublist argv ∧ ∀ q, q ≠ embeddings →
        similarCli T S stdin argv fs = .ok (similarMain T S f embeddings q k lossy mmap (withFile fs q stdin))) := by
  rcases h1 : parseArgs similarParser argv with x | ns
  · left
    exact ⟨x, by rw [similarCli, h1]; rfl⟩
  right
  obtain ⟨h2, ⟨vs, h3, h4⟩, -⟩ := parse_any sound_similar (by decide +kernel) h1
  obtain ⟨v1, v2, rfl, ⟨hin, p1⟩, hq, p2⟩ := forall₂_two (a := positional (ascii "embeddings".toList))
    (b := optPositional (ascii "input".toList)) h3
  obtain ⟨f, -, s2⟩ := any_format (P := fun _ => True)
    (a := formatArg (ascii "f".toList) (ascii "format".toList) formatNames Format.finalfusion.name) rfl rfl rfl
    (fun s hs => (formatNames_ok s hs).imp fun _ h => ⟨trivial, h⟩) trivial rfl (h2 _ (by decide +kernel) (by decide +kernel) (by decide +kernel))
  obtain ⟨k, k2⟩ := any_int (a := kArg) rfl rfl (h2 _ (by decide +kernel) (by decide +kernel) (by decide +kernel))
  have hin' := pathOf_any hin
  simp only [positional, formatArg, optPositional, kArg] at hin' s2 hq k2
  rcases hin' with ⟨hin', e1⟩ | ⟨embeddings, rfl, e1, hin'⟩
  · refine Or.inl ⟨posVal_none p1 e1, ?_⟩
    rw [similarCli, h1]
    simp only [ex_bind_ok, loadArgs, hin', s2, ex_bind_error]
    exact ⟨_, rfl⟩
  have hother : openOf ns (ascii "input".toList) stdin fs = .error .typeError → 2 ≤ argv.count [45, 45] →
      2 ≤ argv.count [45, 45] ∧ ∃ x, similarCli T S stdin argv fs = .ok ([], .error x) := by
    intro ho hc
    refine ⟨hc, ?_⟩
    rw [similarCli, h1]
    simp only [ex_bind_ok, ho, ex_pure]
    generalize loadArgs T ns _ _ fs = r
    rcases r with x | e <;> exact ⟨_, rfl⟩
  have hcount : (∀ s, v2 ≠ .str s) → v2 ≠ .int 0 → 2 ≤ argv.count [45, 45] := by
    intro a1 a2
    rcases p2 with ⟨s, h⟩ | ⟨-, h⟩ | h
    · exact absurd h (a1 s)
    · exact absurd h a2
    · exact h
  rcases v2 with q | i | b | xs
  · refine Or.inr ⟨f, embeddings, k, flagOf ns (ascii "lossy".toList), flagOf ns (ascii "mmap".toList),
      Or.inl ⟨q, by simpa [valWords] using h4, ?_⟩⟩
    have hop := openOf_file hq stdin fs
    rw [similarCli, h1]
    simp only [ex_bind_ok, loadArgs, hin', s2, similarMain, k2]
    rw [hop]
    rcases fs q with _ | bs <;> rfl
  · by_cases hi : i = 0
    · subst hi
      refine Or.inr ⟨f, embeddings, k, flagOf ns (ascii "lossy".toList), flagOf ns (ascii "mmap".toList),
        Or.inr ⟨by simpa [valWords] using h4, fun q hq' => ?_⟩⟩
      have hop := openOf_stdin hq stdin fs
      rw [similarCli, h1]
      simp only [ex_bind_ok, loadArgs, hin', s2, similarMain, k2, readFile_withFile hq'.symm, withFile_self]
      rw [hop]
      rfl
    · refine Or.inl (hother ?_ (hcount (by simp) (by simpa using hi)))
      rw [openOf, hq]
      rcases i with (_ | n) | n
      · exact absurd rfl hi
      · rfl
      · rfl
  · exact Or.inl (hother (by rw [openOf, hq]) (hcount (by simp) (by simp)))
  · exact Or.inl (hother (by rw [openOf, hq]) (hcount (by simp) (by simp)))

/-- `ffp-analogy` with any words: the queries are in the second word or in the standard input. -/
theorem C76_analogy (T : Toml) (S : Sel F32) (stdin : Bytes) (fs : FS) (argv : List PyStr) :
    (∃ x, analogyCli T S stdin argv fs = .error x) ∨
    (2 ≤ argv.count [45, 45] ∧ ∃ x, analogyCli T S stdin argv fs = .ok ([], .error x)) ∨
    ∃ f embeddings k incs lossy mmap,
      (∃ q, [embeddings, q].Sublist argv ∧
        analogyCli T S stdin argv fs = .ok (analogyMain T S f embeddings q k incs lossy mmap fs)) ∨
      ([embeddings].Sublist argv ∧ ∀ q, q ≠ embeddings →
        analogyCli T S stdin argv fs = .ok (analogyMain T S f embeddings q k incs lossy mmap (withFile fs q stdin))) := by
  rcases h1 : parseArgs analogyParser argv with x | ns
  · left
    exact ⟨x, by rw [analogyCli, h1]; rfl⟩
  right
  obtain ⟨h2, ⟨vs, h3, h4⟩, -⟩ := parse_any sound_analogy (by decide +kernel) h1
  obtain ⟨v1, v2, rfl, ⟨hin, p1⟩, hq, p2⟩ := forall₂_two (a := positional (ascii "embeddings".toList))
    (b := optPositional (ascii "input".toList)) h3
  obtain ⟨f, -, s2⟩ := any_format (P := fun _ => True)
    (a := formatArg (ascii "f".toList) (ascii "format".toList) formatNames Format.finalfusion.name) rfl rfl rfl
    (fun s hs => (formatNames_ok s hs).imp fun _ h => ⟨trivial, h⟩) trivial rfl (h2 _ (by decide +kernel) (by decide +kernel) (by decide +kernel))
  obtain ⟨k, k2⟩ := any_int (a := kArg) rfl rfl (h2 _ (by decide +kernel) (by decide +kernel) (by decide +kernel))
  have hin' := pathOf_any hin
  simp only [positional, formatArg, optPositional, kArg] at hin' s2 hq k2
  rcases hin' with ⟨hin', e1⟩ | ⟨embeddings, rfl, e1, hin'⟩
  · refine Or.inl ⟨posVal_none p1 e1, ?_⟩
    rw [analogyCli, h1]
    simp only [ex_bind_ok, loadArgs, hin', s2, ex_bind_error]
    by_cases hi : listOf ns (ascii "include".toList) ≠ [] ∧ (listOf ns (ascii "include".toList)).length > 3
    · rw [if_pos hi]
      exact ⟨_, rfl⟩
    rw [if_neg hi]
    exact ⟨_, rfl⟩
  have hother : openOf ns (ascii "input".toList) stdin fs = .error .typeError → 2 ≤ argv.count [45, 45] →
      2 ≤ argv.count [45, 45] ∧ ∃ x, analogyCli T S stdin argv fs = .ok ([], .error x) := by
    intro ho hc
    refine ⟨hc, ?_⟩
    rw [analogyCli, h1]
    simp only [ex_bind_ok, ho, ex_pure]
    generalize loadArgs T ns _ _ fs = r
    by_cases hi : listOf ns (ascii "include".toList) ≠ [] ∧ (listOf ns (ascii "include".toList)).length > 3
    · rw [if_pos hi]
      exact ⟨_, rfl⟩
    rw [if_neg hi]
    rcases r with x | e <;> exact ⟨_, rfl⟩
  have hcount : (∀ s, v2 ≠ .str s) → v2 ≠ .int 0 → 2 ≤ argv.count [45, 45] := by
    intro a1 a2
    rcases p2 with ⟨s, h⟩ | ⟨-, h⟩ | h
    · exact absurd h (a1 s)
    · exact absurd h a2
    · exact h
  rcases v2 with q | i | b | xs
  · refine Or.inr ⟨f, embeddings, k, listOf ns (ascii "include".toList), flagOf ns (ascii "lossy".toList), flagOf ns (ascii "mmap".toList),
      Or.inl ⟨q, by simpa [valWords] using h4, ?_⟩⟩
    have hop := openOf_file hq stdin fs
    rw [analogyCli, h1]
    simp only [ex_bind_ok, loadArgs, hin', s2, analogyMain, k2]
    rw [hop]
    rcases fs q with _ | bs <;> rfl
  · by_cases hi : i = 0
    · subst hi
      refine Or.inr ⟨f, embeddings, k, listOf ns (ascii "include".toList), flagOf ns (ascii "lossy".toList), flagOf ns (ascii "mmap".toList),
        Or.inr ⟨by simpa [valWords] using h4, fun q hq' => ?_⟩⟩
      have hop := openOf_stdin hq stdin fs
      rw [analogyCli, h1]
      simp only [ex_bind_ok, loadArgs, hin', s2, analogyMain, k2, readFile_withFile hq'.symm, withFile_self]
      rw [hop]
      rfl
    · refine Or.inl (hother ?_ (hcount (by simp) (by simpa using hi)))
      rw [openOf, hq]
      rcases i with (_ | n) | n
      · exact absurd rfl hi
      · rfl
      · rfl
  · exact Or.inl (hother (by rw [openOf, hq]) (hcount (by simp) (by simp)))
  · exact Or.inl (hother (by rw [openOf, hq]) (hcount (by simp) (by simp)))

/-- Only the file that is named by one of the words is changed. -/
theorem C76_files [Remap] (T : Toml) (enum : List PyStr → List PyStr) (stdin : Bytes) (fs fs' : FS) (argv : List PyStr) (r : Res Unit)
    (h : convertCli T argv fs = .ok (r, fs') ∨ bucketToExplicitCli T argv fs = .ok (r, fs') ∨
      selectCli T enum stdin argv fs = .ok (r, fs')) :
    fs' = fs ∨ ∃ output ∈ argv, ∀ p, p ≠ output → fs' p = fs p := by
  have hw : ∀ (output : PyStr) (w : Wr Unit) (p : PyStr), p ≠ output → (writeFile output w fs).2 p = fs p :=
    fun output w p hp => if_neg hp
  rcases h with h | h | h
  · rcases C76_convert T fs argv with ⟨x, e⟩ | ⟨-, x, e⟩ | ⟨src, dst, input, output, lossy, mmap, hs, e⟩
    · rw [e] at h; cases h
    · rw [e] at h; cases h; exact Or.inl rfl
    · rw [e] at h
      simp only [Except.ok.injEq] at h
      refine Or.inr ⟨output, hs.subset (by simp), fun p hp => ?_⟩
      have : fs' = (convertMain T src dst input output lossy mmap fs).2 := by rw [h]
      rw [this, convertMain]
      rcases readFile input _ fs with x | e
      · rfl
      · simp only [convertWrite]
        split_ifs
        · exact if_neg hp
        · exact hw _ _ p hp
  · rcases C76_bucket_to_explicit T fs argv with ⟨x, e⟩ | ⟨-, x, e⟩ | ⟨src, input, output, lossy, mmap, -, hs, e⟩
    · rw [e] at h; cases h
    · rw [e] at h; cases h; exact Or.inl rfl
    · rw [e] at h
      simp only [Except.ok.injEq] at h
      refine Or.inr ⟨output, hs.subset (by simp), fun p hp => ?_⟩
      have : fs' = (bucketToExplicitMain T src input output lossy mmap fs).2 := by rw [h]
      rw [this, bucketToExplicitMain]
      rcases readFile input _ fs with x | e
      · rfl
      · simp only
        rcases e.bucketToExplicit with x | e'
        · rfl
        · exact hw _ _ p hp
  · have hsel : ∀ f input output q ignore lossy mmap (fs : FS) (p : PyStr), p ≠ output →
        (selectMain T enum f input output q ignore lossy mmap fs).2 p = fs p := by
      intro f input output q ignore lossy mmap fs p hp
      rw [selectMain]
      generalize (readFile input _ fs >>= _ : Res (Embeddings F32)) = r
      rcases r with x | e
      · rfl
      · exact if_neg hp
    rcases C76_select T enum stdin fs argv with ⟨x, e⟩ | ⟨-, x, e⟩ | ⟨f, input, output, ignore, lossy, mmap, ⟨q, hs, e⟩ | ⟨hs, e⟩⟩
    · rw [e] at h; cases h
    · rw [e] at h; cases h; exact Or.inl rfl
    · rw [e] at h
      simp only [Except.ok.injEq] at h
      refine Or.inr ⟨output, hs.subset (by simp), fun p hp => ?_⟩
      have : fs' = (selectMain T enum f input output q ignore lossy mmap fs).2 := by rw [h]
      rw [this]
      exact hsel _ _ _ _ _ _ _ _ _ hp
    · refine Or.inr ⟨output, hs.subset (by simp), fun p hp => ?_⟩
      obtain ⟨q, hq⟩ : ∃ q : PyStr, q ∉ [input, output, p] := Infinite.exists_notMem_finset ([input, output, p].toFinset) |>.imp fun q hq => by simpa using hq
      simp only [List.mem_cons, List.not_mem_nil, or_false, not_or] at hq
      rw [e q hq.1 hq.2.1] at h
      simp only [Except.ok.injEq, Prod.mk.injEq] at h
      rw [← h.2]
      simp only [if_neg (Ne.symm hq.2.2)]
      rw [hsel _ _ _ _ _ _ _ _ _ hp, withFile, if_neg (Ne.symm hq.2.2)]

/-- Nothing that looks like an option is passed over: if a tool gets to work, every such word sets options of the tool. -/
theorem C76_known [Remap] (T : Toml) (S : Sel F32) (enum : List PyStr → List PyStr) (stdin : Bytes) (fs : FS) (argv : List PyStr) :
    (∀ r, convertCli T argv fs = .ok r → AllKnown convertParser argv) ∧
    (∀ r, bucketToExplicitCli T argv fs = .ok r → AllKnown bucketParser argv) ∧
    (∀ r, selectCli T enum stdin argv fs = .ok r → AllKnown selectParser argv) ∧
    (∀ r, similarCli T S stdin argv fs = .ok r → AllKnown similarParser argv) ∧
    (∀ r, analogyCli T S stdin argv fs = .ok r → AllKnown analogyParser argv) := by
  have hl : ∀ acts, helpAct ∈ acts → flagArg [ascii "--mmap".toList] (ascii "mmap".toList) ∈ acts →
      ∃ f g, f ≠ g ∧ (∃ a, IsFlag acts f a) ∧ (∃ b, IsFlag acts g b) ∧ [45, 45] <+: f ∧ [45, 45] <+: g := fun acts h1 h2 =>
    two_long (f := ascii "--help".toList) (g := ascii "--mmap".toList) h1 (by decide +kernel) h2 (by decide +kernel) (by decide +kernel)
      (by decide +kernel) (by decide +kernel)
  refine ⟨fun r h => ?_, fun r h => ?_, fun r h => ?_, fun r h => ?_, fun r h => ?_⟩
  · rcases h1 : parseArgs convertParser argv with x | ns
    · rw [convertCli, h1] at h
      cases h
    · exact parse_known sound_convert (by decide +kernel) (hl _ (by decide +kernel) (by decide +kernel)) h1
  · rcases h1 : parseArgs bucketParser argv with x | ns
    · rw [bucketToExplicitCli, h1] at h
      cases h
    · exact parse_known sound_bucket (by decide +kernel) (hl _ (by decide +kernel) (by decide +kernel)) h1
  · rcases h1 : parseArgs selectParser argv with x | ns
    · rw [selectCli, h1] at h
      cases h
    · exact parse_known sound_select (by decide +kernel) (hl _ (by decide +kernel) (by decide +kernel)) h1
  · rcases h1 : parseArgs similarParser argv with x | ns
    · rw [similarCli, h1] at h
      cases h
    · exact parse_known sound_similar (by decide +kernel) (hl _ (by decide +kernel) (by decide +kernel)) h1
  · rcases h1 : parseArgs analogyParser argv with x | ns
    · rw [analogyCli, h1] at h
      cases h
    · exact parse_known sound_analogy (by decide +kernel) (hl _ (by decide +kernel) (by decide +kernel)) h1

/-- `ffp-convert in out -lx`: `x` is no option, and no option begins with `-lx`, so the tool exits. -/
example [Remap] (T : Toml) (fs : FS) : convertCli T [ascii "in".toList, ascii "out".toList, ascii "-lx".toList] fs = .error .usage := by
  have h1 : parseArgs convertParser [ascii "in".toList, ascii "out".toList, ascii "-lx".toList] = .error .usage := by decide +kernel
  rw [convertCli, h1]
  rfl

/-- `ffp-convert -tfinalfusion in -- -l`: an odd line that is accepted; the output is named `-l`. -/
example [Remap] (T : Toml) (fs : FS) :
    ∃ r, convertCli T [ascii "-tfinalfusion".toList, ascii "in".toList, ascii "--".toList, ascii "-l".toList] fs = .ok r := by
  have h1 : parseArgs convertParser [ascii "-tfinalfusion".toList, ascii "in".toList, ascii "--".toList, ascii "-l".toList] =
      .ok [(ascii "input".toList, .str (ascii "in".toList)), (ascii "output".toList, .str (ascii "-l".toList)),
        (ascii "from".toList, .str Format.word2vec.name), (ascii "to".toList, .str Format.finalfusion.name),
        (ascii "lossy".toList, .bool false), (ascii "mmap".toList, .bool false)] := by decide +kernel
  rw [convertCli, h1]
  exact ⟨_, rfl⟩

end

end FF
