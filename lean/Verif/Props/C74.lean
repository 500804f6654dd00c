import Verif.Lemmas.ArgsTools
import Verif.Lemmas.PyInt
/-!
# C74: the command lines of the tools

What a command line says is given by the grammar `Line`: words and options in any order, options in all spellings
(`-k 5`, `-k5`, `-lk5`, `--from text`, `--from=text`, `--fr text`), the last one counting, words after `--`.  `ffp-convert` and
`ffp-bucket-to-explicit` do what their command lines say.  `ffp-similar`, `ffp-analogy` and `ffp-select` do so only if the
optional file is not given or stands directly behind the required ones; otherwise they reject the command line.
-/

namespace FF

section
variable [NumOps F32] [NumText F32] [TextIO]

/-- `ffp-convert` converts the first word to the second word, from and to the formats of the last `-f` and the last `-t`. -/
theorem C74_convert [Remap] (T : Toml) (fs : FS) {argv : List PyStr} {is : List CmdItem} (hl : Line convertParser argv is)
    (hx : firstExit is = none) (hu : ¬ hasUnknown is) {input output : PyStr} (hp : positionals is = [input, output]) :
    ∃ src dst lossy mmap, SaysFormat is (ascii "from".toList) .word2vec src ∧
      SaysFormat is (ascii "to".toList) .finalfusion dst ∧ SaysFlag is (ascii "lossy".toList) lossy ∧
      SaysFlag is (ascii "mmap".toList) mmap ∧
      convertCli T argv fs = .ok (convertMain T src dst input output lossy mmap fs) := by
  obtain ⟨ns, h1, h2, h3⟩ := (parse_line sound_convert hl).2.2 hx hu (Or.inl (by rw [hp]; rfl))
  have hin := h3 0 (positional (ascii "input".toList)) (by decide +kernel)
  have hout := h3 1 (positional (ascii "output".toList)) (by decide +kernel)
  rw [hp] at hin hout
  obtain ⟨src, s1, s2⟩ := says_format sound_convert hl
    (a := formatArg (ascii "f".toList) (ascii "from".toList) formatNames Format.word2vec.name) (by decide +kernel) rfl rfl rfl
    formatNames_ok rfl (h2 _ (by decide +kernel) (by decide +kernel) (by decide +kernel))
  obtain ⟨dst, t1, t2⟩ := says_format sound_convert hl
    (a := formatArg (ascii "t".toList) (ascii "to".toList) formatNames Format.finalfusion.name) (by decide +kernel) rfl rfl rfl
    formatNames_ok rfl (h2 _ (by decide +kernel) (by decide +kernel) (by decide +kernel))
  have f1 := says_flag sound_convert hl hx
    (a := flagArg [ascii "-l".toList, ascii "--lossy".toList] (ascii "lossy".toList)) (by decide +kernel) rfl rfl
    (h2 _ (by decide +kernel) (by decide +kernel) (by decide +kernel))
  have f2 := says_flag sound_convert hl hx
    (a := flagArg [ascii "--mmap".toList] (ascii "mmap".toList)) (by decide +kernel) rfl rfl
    (h2 _ (by decide +kernel) (by decide +kernel) (by decide +kernel))
  refine ⟨src, dst, _, _, s1, t1, f1, f2, ?_⟩
  have hin' := pathOf_str hin
  have hout' := pathOf_str hout
  simp only [positional, formatArg, flagArg] at hin' hout' s2 t2 ⊢
  rw [convertCli, h1]
  simp only [ex_bind_ok, hin', hout', s2, t2, convertMain]
  rfl

/-- `ffp-convert --fr=text in -lt finalfusion out` -/
example : ∃ is, Line convertParser [ascii "--fr=text".toList, ascii "in".toList, ascii "-lt".toList, ascii "finalfusion".toList, ascii "out".toList] is ∧
    firstExit is = none ∧ ¬ hasUnknown is ∧ positionals is = [ascii "in".toList, ascii "out".toList] ∧
    SaysFormat is (ascii "from".toList) .word2vec .text ∧ SaysFormat is (ascii "to".toList) .finalfusion .finalfusion ∧
    SaysFlag is (ascii "lossy".toList) true ∧ SaysFlag is (ascii "mmap".toList) false :=
  ⟨[.opt (formatArg (ascii "f".toList) (ascii "from".toList) formatNames Format.word2vec.name) [ascii "text".toList],
    .word (ascii "in".toList), .opt (flagArg [ascii "-l".toList, ascii "--lossy".toList] (ascii "lossy".toList)) [],
    .opt (formatArg (ascii "t".toList) (ascii "to".toList) formatNames Format.finalfusion.name) [ascii "finalfusion".toList],
    .word (ascii "out".toList)],
    .opts (w := ascii "--fr=text".toList) (os := [(_, [ascii "text".toList])])
      (.eq (p := ascii "--fr".toList) ⟨by decide +kernel, by decide +kernel, by decide +kernel, Or.inr ⟨ascii "--from".toList,
        ⟨by decide +kernel, by decide +kernel⟩, by decide +kernel, abbrev_of (by decide +kernel)⟩⟩) (.word (plain_of (by decide +kernel))
      (.one (os := [(_, [])]) (.short (w := ascii "lt".toList) (.more ⟨by decide +kernel, by decide +kernel⟩ rfl (by decide +kernel)
        (by decide +kernel) (.next ⟨by decide +kernel, by decide +kernel⟩ (Or.inl rfl)))) rfl (plain_of (by decide +kernel))
        (.word (plain_of (by decide +kernel)) .nil))),
    by decide +kernel, by rintro ⟨s, h⟩; simp at h, by decide +kernel, Or.inl (by decide +kernel), Or.inl (by decide +kernel),
    saysFlag_of (by decide +kernel), saysFlag_of (by decide +kernel)⟩

/-- `ffp-bucket-to-explicit` reads the first word in the format of the last `-f` and writes the second word. -/
theorem C74_bucket_to_explicit (T : Toml) (fs : FS) {argv : List PyStr} {is : List CmdItem} (hl : Line bucketParser argv is)
    (hx : firstExit is = none) (hu : ¬ hasUnknown is) {input output : PyStr} (hp : positionals is = [input, output]) :
    ∃ src lossy mmap, (src = .finalfusion ∨ src = .fasttext) ∧ SaysFormat is (ascii "from".toList) .finalfusion src ∧
      SaysFlag is (ascii "lossy".toList) lossy ∧ SaysFlag is (ascii "mmap".toList) mmap ∧
      bucketToExplicitCli T argv fs = .ok (bucketToExplicitMain T src input output lossy mmap fs) := by
  obtain ⟨ns, h1, h2, h3⟩ := (parse_line sound_bucket hl).2.2 hx hu (Or.inl (by rw [hp]; rfl))
  have hin := h3 0 (positional (ascii "input".toList)) (by decide +kernel)
  have hout := h3 1 (positional (ascii "output".toList)) (by decide +kernel)
  rw [hp] at hin hout
  obtain ⟨src, s0, s1, s2⟩ := says_format_of sound_bucket hl
    (a := formatArg (ascii "f".toList) (ascii "from".toList) [Format.finalfusion.name, Format.fasttext.name] Format.finalfusion.name) (by decide +kernel) rfl rfl rfl
    bucketNames_ok (Or.inl rfl) rfl (h2 _ (by decide +kernel) (by decide +kernel) (by decide +kernel))
  have f1 := says_flag sound_bucket hl hx
    (a := flagArg [ascii "-l".toList, ascii "--lossy".toList] (ascii "lossy".toList)) (by decide +kernel) rfl rfl
    (h2 _ (by decide +kernel) (by decide +kernel) (by decide +kernel))
  have f2 := says_flag sound_bucket hl hx
    (a := flagArg [ascii "--mmap".toList] (ascii "mmap".toList)) (by decide +kernel) rfl rfl
    (h2 _ (by decide +kernel) (by decide +kernel) (by decide +kernel))
  refine ⟨src, _, _, s0, s1, f1, f2, ?_⟩
  have hin' := pathOf_str hin
  have hout' := pathOf_str hout
  simp only [positional, formatArg, flagArg] at hin' hout' s2 ⊢
  rw [bucketToExplicitCli, h1]
  simp only [ex_bind_ok, loadArgs, hin', hout', s2, bucketToExplicitMain]
  congr 1
  rcases readFile input _ fs with x | e
  · rfl
  · simp only
    rcases e.bucketToExplicit with x | e' <;> rfl

/-- `ffp-bucket-to-explicit in out -ffasttext --mmap` -/
example : ∃ is, Line bucketParser [ascii "in".toList, ascii "out".toList, ascii "-ffasttext".toList, ascii "--mmap".toList] is ∧
    firstExit is = none ∧ ¬ hasUnknown is ∧ positionals is = [ascii "in".toList, ascii "out".toList] ∧
    SaysFormat is (ascii "from".toList) .finalfusion .fasttext ∧ SaysFlag is (ascii "mmap".toList) true :=
  ⟨[.word (ascii "in".toList), .word (ascii "out".toList),
    .opt (formatArg (ascii "f".toList) (ascii "from".toList) [Format.finalfusion.name, Format.fasttext.name] Format.finalfusion.name) [ascii "fasttext".toList],
    .opt (flagArg [ascii "--mmap".toList] (ascii "mmap".toList)) []],
    .word (plain_of (by decide +kernel)) (.word (plain_of (by decide +kernel)) (.opts (os := [(_, [ascii "fasttext".toList])])
      (.short (w := ascii "ffasttext".toList) (.glued ⟨by decide +kernel, by decide +kernel⟩ (Or.inl rfl) (by decide +kernel) (by decide +kernel)))
      (.opts (os := [(_, [])]) (.long ⟨by decide +kernel, by decide +kernel, by decide +kernel,
        Or.inl ⟨by decide +kernel, by decide +kernel⟩⟩ rfl) .nil))),
    by decide +kernel, by rintro ⟨s, h⟩; simp at h, by decide +kernel, Or.inl (by decide +kernel), saysFlag_of (by decide +kernel)⟩

/-- A file system in which the file `q` has the contents `bs` -/
def withFile (fs : FS) (q : PyStr) (bs : Bytes) : FS := fun p => if p = q then some bs else fs p

omit [NumOps F32] [NumText F32] [TextIO] in
theorem withFile_self (fs : FS) (q : PyStr) (bs : Bytes) : withFile fs q bs q = some bs := if_pos rfl

omit [NumOps F32] [NumText F32] [TextIO] in
theorem readFile_withFile {α : Type} {p q : PyStr} (h : p ≠ q) (load : Bytes → Res α) (fs : FS) (bs : Bytes) :
    readFile p load (withFile fs q bs) = readFile p load fs := by
  rw [readFile, readFile, withFile, if_neg h]

omit [NumOps F32] [NumText F32] [TextIO] in
theorem openOf_stdin {ns : Dict PyStr Val} {d : PyStr} (h : ns.get? d = some (.int 0)) (stdin : Bytes) (fs : FS) :
    openOf ns d stdin fs = .ok stdin := by
  rw [openOf, h]
  rfl

omit [NumOps F32] [NumText F32] [TextIO] in
theorem openOf_file {ns : Dict PyStr Val} {d q : PyStr} (h : ns.get? d = some (.str q)) (stdin : Bytes) (fs : FS) :
    openOf ns d stdin fs = match fs q with | some bs => .ok bs | none => .error .osError := by
  rw [openOf, h]
  rfl

/-- `ffp-similar` with one word takes the queries from the standard input: it answers as if a file with these queries had been
given. -/
theorem C74_similar_stdin
    (T : Toml) (S : Sel F32) (stdin : Bytes) (fs : FS) {argv : List PyStr} {is : List CmdItem}
    (hl : Line similarParser argv is) (hx : firstExit is = none) (hu : ¬ hasUnknown is) {embeddings : PyStr} (hp : positionals is = [embeddings]) :
    ∃ f k lossy mmap, SaysFormat is (ascii "format".toList) .finalfusion f ∧ SaysK is k ∧
      SaysFlag is (ascii "lossy".toList) lossy ∧ SaysFlag is (ascii "mmap".toList) mmap ∧
      ∀ q, q ≠ embeddings →
        similarCli T S stdin argv fs = .ok (similarMain T S f embeddings q k lossy mmap (withFile fs q stdin)) := by
  obtain ⟨ns, h1, h2, h3⟩ := (parse_line sound_similar hl).2.2 hx hu (Or.inl (by rw [hp]; rfl))
  have hin := h3 0 (positional (ascii "embeddings".toList)) (by decide +kernel)
  have hq := h3 1 (optPositional (ascii "input".toList)) (by decide +kernel)
  rw [hp] at hin hq
  obtain ⟨f, s1, s2⟩ := says_format sound_similar hl
    (a := formatArg (ascii "f".toList) (ascii "format".toList) formatNames Format.finalfusion.name) (by decide +kernel) rfl rfl rfl
    formatNames_ok rfl (h2 _ (by decide +kernel) (by decide +kernel) (by decide +kernel))
  obtain ⟨k, k1, k2⟩ := says_k sound_similar hl (by decide +kernel) (h2 _ (by decide +kernel) (by decide +kernel) (by decide +kernel))
  have f1 := says_flag sound_similar hl hx
    (a := flagArg [ascii "-l".toList, ascii "--lossy".toList] (ascii "lossy".toList)) (by decide +kernel) rfl rfl
    (h2 _ (by decide +kernel) (by decide +kernel) (by decide +kernel))
  have f2 := says_flag sound_similar hl hx
    (a := flagArg [ascii "--mmap".toList] (ascii "mmap".toList)) (by decide +kernel) rfl rfl
    (h2 _ (by decide +kernel) (by decide +kernel) (by decide +kernel))
  refine ⟨f, k, _, _, s1, k1, f1, f2, fun q hq' => ?_⟩
  have hin' := pathOf_str hin
  have hop := openOf_stdin hq stdin fs
  simp only [positional, formatArg, flagArg] at hin' s2 ⊢
  rw [similarCli, h1]
  simp only [ex_bind_ok, loadArgs, hin', s2, similarMain, k2, readFile_withFile hq'.symm, withFile_self]
  simp only [optPositional] at hop
  rw [hop]
  rfl

/-- `ffp-similar emb -k=5 --lossy` -/
example : ∃ is, Line similarParser
      [ascii "emb".toList, ascii "-k=5".toList, ascii "--lossy".toList] is ∧
    firstExit is = none ∧ ¬ hasUnknown is ∧ positionals is = [ascii "emb".toList] ∧
    SaysK is 5 ∧ SaysFormat is (ascii "format".toList) .finalfusion .finalfusion :=
  ⟨[.word (ascii "emb".toList), .opt kArg [ascii "5".toList], .opt (flagArg [ascii "-l".toList, ascii "--lossy".toList] (ascii "lossy".toList)) []],
    .word (plain_of (by decide +kernel)) (.opts (os := [(_, [ascii "5".toList])])
      (.short (w := ascii "k=5".toList) (.eq ⟨by decide +kernel, by decide +kernel⟩ (Or.inl rfl)))
      (.opts (os := [(_, [])]) (.long ⟨by decide +kernel, by decide +kernel, by decide +kernel,
        Or.inl ⟨by decide +kernel, by decide +kernel⟩⟩ rfl) .nil)),
    by decide +kernel, by rintro ⟨s, h⟩; simp at h, by decide +kernel, Or.inl (by decide +kernel), Or.inr ⟨by decide +kernel, rfl⟩⟩

/-- `ffp-similar` with two words that stand next to each other answers the queries in the second one.  Missing: words with
options between them, see `C74_similar_refuted`. -/
theorem C74_similar_file_partial
    (T : Toml) (S : Sel F32) (stdin : Bytes) (fs : FS) {argv : List PyStr} {is : List CmdItem}
    (hl : Line similarParser argv is) (hx : firstExit is = none) (hu : ¬ hasUnknown is) {embeddings q : PyStr} (hp : positionals is = [embeddings, q])
    (hadj : Adjacent is 1) :
    ∃ f k lossy mmap, SaysFormat is (ascii "format".toList) .finalfusion f ∧ SaysK is k ∧
      SaysFlag is (ascii "lossy".toList) lossy ∧ SaysFlag is (ascii "mmap".toList) mmap ∧
      similarCli T S stdin argv fs = .ok (similarMain T S f embeddings q k lossy mmap fs) := by
  obtain ⟨ns, h1, h2, h3⟩ := (parse_line sound_similar hl).2.2 hx hu (Or.inr ⟨by rw [hp]; rfl, by decide +kernel, hadj⟩)
  have hin := h3 0 (positional (ascii "embeddings".toList)) (by decide +kernel)
  have hq := h3 1 (optPositional (ascii "input".toList)) (by decide +kernel)
  rw [hp] at hin hq
  obtain ⟨f, s1, s2⟩ := says_format sound_similar hl
    (a := formatArg (ascii "f".toList) (ascii "format".toList) formatNames Format.finalfusion.name) (by decide +kernel) rfl rfl rfl
    formatNames_ok rfl (h2 _ (by decide +kernel) (by decide +kernel) (by decide +kernel))
  obtain ⟨k, k1, k2⟩ := says_k sound_similar hl (by decide +kernel) (h2 _ (by decide +kernel) (by decide +kernel) (by decide +kernel))
  have f1 := says_flag sound_similar hl hx
    (a := flagArg [ascii "-l".toList, ascii "--lossy".toList] (ascii "lossy".toList)) (by decide +kernel) rfl rfl
    (h2 _ (by decide +kernel) (by decide +kernel) (by decide +kernel))
  have f2 := says_flag sound_similar hl hx
    (a := flagArg [ascii "--mmap".toList] (ascii "mmap".toList)) (by decide +kernel) rfl rfl
    (h2 _ (by decide +kernel) (by decide +kernel) (by decide +kernel))
  refine ⟨f, k, _, _, s1, k1, f1, f2, ?_⟩
  have hin' := pathOf_str hin
  have hop := openOf_file hq stdin fs
  simp only [positional, formatArg, flagArg] at hin' s2 ⊢
  rw [similarCli, h1]
  simp only [ex_bind_ok, loadArgs, hin', s2, similarMain, k2]
  simp only [optPositional] at hop
  rw [hop]
  rcases fs q with _ | bs <;> rfl

/-- `ffp-similar -k 5 emb queries -k -1`: the last one counts -/
example : ∃ is, Line similarParser
      [ascii "-k".toList, ascii "5".toList, ascii "emb".toList, ascii "queries".toList, ascii "-k".toList, ascii "-1".toList] is ∧
    firstExit is = none ∧ ¬ hasUnknown is ∧ positionals is = [ascii "emb".toList, ascii "queries".toList] ∧
    Adjacent is 1 ∧ SaysK is (-1) :=
  ⟨[.opt kArg [ascii "5".toList], .word (ascii "emb".toList), .word (ascii "queries".toList), .opt kArg [ascii "-1".toList]],
    .one (os := []) (.short (w := ascii "k".toList) (.next ⟨by decide +kernel, by decide +kernel⟩ (Or.inl rfl))) rfl (plain_of (by decide +kernel))
      (.word (plain_of (by decide +kernel)) (.word (plain_of (by decide +kernel))
        (.one (os := []) (.short (w := ascii "k".toList) (.next ⟨by decide +kernel, by decide +kernel⟩ (Or.inl rfl))) rfl
          (Or.inr (Or.inr ⟨[49], by simp, by decide +kernel, fun d hd => by rw [List.mem_singleton.1 hd]; decide⟩)) .nil))),
    by decide +kernel, by rintro ⟨s, h⟩; simp at h, by decide +kernel, ⟨[_], _, _, _, rfl, rfl⟩, Or.inl (by decide +kernel)⟩

/-- `ffp-analogy` with one word takes the queries from the standard input. -/
theorem C74_analogy_stdin
    (T : Toml) (S : Sel F32) (stdin : Bytes) (fs : FS) {argv : List PyStr} {is : List CmdItem}
    (hl : Line analogyParser argv is) (hx : firstExit is = none) (hu : ¬ hasUnknown is) {embeddings : PyStr} (hp : positionals is = [embeddings]) :
    ∃ f k incs lossy mmap, SaysFormat is (ascii "format".toList) .finalfusion f ∧ SaysK is k ∧
      SaysIncludes is incs ∧ SaysFlag is (ascii "lossy".toList) lossy ∧ SaysFlag is (ascii "mmap".toList) mmap ∧
      ∀ q, q ≠ embeddings →
        analogyCli T S stdin argv fs = .ok (analogyMain T S f embeddings q k incs lossy mmap (withFile fs q stdin)) := by
  obtain ⟨ns, h1, h2, h3⟩ := (parse_line sound_analogy hl).2.2 hx hu (Or.inl (by rw [hp]; rfl))
  have hin := h3 0 (positional (ascii "embeddings".toList)) (by decide +kernel)
  have hq := h3 1 (optPositional (ascii "input".toList)) (by decide +kernel)
  rw [hp] at hin hq
  obtain ⟨f, s1, s2⟩ := says_format sound_analogy hl
    (a := formatArg (ascii "f".toList) (ascii "format".toList) formatNames Format.finalfusion.name) (by decide +kernel) rfl rfl rfl
    formatNames_ok rfl (h2 _ (by decide +kernel) (by decide +kernel) (by decide +kernel))
  obtain ⟨k, k1, k2⟩ := says_k sound_analogy hl (by decide +kernel) (h2 _ (by decide +kernel) (by decide +kernel) (by decide +kernel))
  have f1 := says_flag sound_analogy hl hx
    (a := flagArg [ascii "-l".toList, ascii "--lossy".toList] (ascii "lossy".toList)) (by decide +kernel) rfl rfl
    (h2 _ (by decide +kernel) (by decide +kernel) (by decide +kernel))
  have f2 := says_flag sound_analogy hl hx
    (a := flagArg [ascii "--mmap".toList] (ascii "mmap".toList)) (by decide +kernel) rfl rfl
    (h2 _ (by decide +kernel) (by decide +kernel) (by decide +kernel))
  have i1 := says_includes sound_analogy hl (a := includeArg)
    (by decide +kernel) rfl rfl rfl rfl (h2 _ (by decide +kernel) (by decide +kernel) (by decide +kernel))
  refine ⟨f, k, _, _, _, s1, k1, i1, f1, f2, fun q hq' => ?_⟩
  have hin' := pathOf_str hin
  have hop := openOf_stdin hq stdin fs
  simp only [positional, formatArg, flagArg] at hin' s2 ⊢
  rw [analogyCli, h1]
  simp only [ex_bind_ok, loadArgs, hin', s2, analogyMain, k2, readFile_withFile hq'.symm, withFile_self]
  simp only [optPositional] at hop
  rw [hop]
  rfl

/-- `ffp-analogy emb -i a b` -/
example : ∃ is, Line analogyParser
      [ascii "emb".toList, ascii "-i".toList, ascii "a".toList, ascii "b".toList] is ∧
    firstExit is = none ∧ ¬ hasUnknown is ∧ positionals is = [ascii "emb".toList] ∧
    SaysIncludes is [ascii "a".toList, ascii "b".toList] ∧ SaysK is 10 :=
  ⟨[.word (ascii "emb".toList), .opt includeArg [ascii "a".toList, ascii "b".toList]],
    .word (plain_of (by decide +kernel)) (.plus (os := []) (vs := [ascii "a".toList, ascii "b".toList]) (ws := [])
      (.short (w := ascii "i".toList) (.next ⟨by decide +kernel, by decide +kernel⟩ (Or.inr rfl))) rfl (by decide +kernel)
      (fun v hv => plain_of (by
        have : ∀ v ∈ [ascii "a".toList, ascii "b".toList], v.head? ≠ some 45 := by decide +kernel
        exact this v hv))
      (by intro w hw; cases hw) .nil),
    by decide +kernel, by rintro ⟨s, h⟩; simp at h, by decide +kernel, Or.inl (by decide +kernel), Or.inr ⟨by decide +kernel, rfl⟩⟩

/-- `ffp-analogy` with two words that stand next to each other answers the queries in the second one.  Missing: words with
options between them, see `C74_analogy_refuted`. -/
theorem C74_analogy_file_partial
    (T : Toml) (S : Sel F32) (stdin : Bytes) (fs : FS) {argv : List PyStr} {is : List CmdItem}
    (hl : Line analogyParser argv is) (hx : firstExit is = none) (hu : ¬ hasUnknown is) {embeddings q : PyStr} (hp : positionals is = [embeddings, q])
    (hadj : Adjacent is 1) :
    ∃ f k incs lossy mmap, SaysFormat is (ascii "format".toList) .finalfusion f ∧ SaysK is k ∧
      SaysIncludes is incs ∧ SaysFlag is (ascii "lossy".toList) lossy ∧ SaysFlag is (ascii "mmap".toList) mmap ∧
      analogyCli T S stdin argv fs = .ok (analogyMain T S f embeddings q k incs lossy mmap fs) := by
  obtain ⟨ns, h1, h2, h3⟩ := (parse_line sound_analogy hl).2.2 hx hu (Or.inr ⟨by rw [hp]; rfl, by decide +kernel, hadj⟩)
  have hin := h3 0 (positional (ascii "embeddings".toList)) (by decide +kernel)
  have hq := h3 1 (optPositional (ascii "input".toList)) (by decide +kernel)
  rw [hp] at hin hq
  obtain ⟨f, s1, s2⟩ := says_format sound_analogy hl
    (a := formatArg (ascii "f".toList) (ascii "format".toList) formatNames Format.finalfusion.name) (by decide +kernel) rfl rfl rfl
    formatNames_ok rfl (h2 _ (by decide +kernel) (by decide +kernel) (by decide +kernel))
  obtain ⟨k, k1, k2⟩ := says_k sound_analogy hl (by decide +kernel) (h2 _ (by decide +kernel) (by decide +kernel) (by decide +kernel))
  have f1 := says_flag sound_analogy hl hx
    (a := flagArg [ascii "-l".toList, ascii "--lossy".toList] (ascii "lossy".toList)) (by decide +kernel) rfl rfl
    (h2 _ (by decide +kernel) (by decide +kernel) (by decide +kernel))
  have f2 := says_flag sound_analogy hl hx
    (a := flagArg [ascii "--mmap".toList] (ascii "mmap".toList)) (by decide +kernel) rfl rfl
    (h2 _ (by decide +kernel) (by decide +kernel) (by decide +kernel))
  have i1 := says_includes sound_analogy hl (a := includeArg)
    (by decide +kernel) rfl rfl rfl rfl (h2 _ (by decide +kernel) (by decide +kernel) (by decide +kernel))
  refine ⟨f, k, _, _, _, s1, k1, i1, f1, f2, ?_⟩
  have hin' := pathOf_str hin
  have hop := openOf_file hq stdin fs
  simp only [positional, formatArg, flagArg] at hin' s2 ⊢
  rw [analogyCli, h1]
  simp only [ex_bind_ok, loadArgs, hin', s2, analogyMain, k2]
  simp only [optPositional] at hop
  rw [hop]
  rcases fs q with _ | bs <;> rfl

/-- `ffp-analogy -i a -ftext emb queries` -/
example : ∃ is, Line analogyParser
      [ascii "-i".toList, ascii "a".toList, ascii "-ftext".toList, ascii "emb".toList, ascii "queries".toList] is ∧
    firstExit is = none ∧ ¬ hasUnknown is ∧ positionals is = [ascii "emb".toList, ascii "queries".toList] ∧
    Adjacent is 1 ∧ SaysIncludes is [ascii "a".toList] :=
  ⟨[.opt includeArg [ascii "a".toList],
    .opt (formatArg (ascii "f".toList) (ascii "format".toList) formatNames Format.finalfusion.name) [ascii "text".toList],
    .word (ascii "emb".toList), .word (ascii "queries".toList)],
    .plus (os := []) (vs := [ascii "a".toList]) (ws := [ascii "-ftext".toList, ascii "emb".toList, ascii "queries".toList])
      (.short (w := ascii "i".toList) (.next ⟨by decide +kernel, by decide +kernel⟩ (Or.inr rfl))) rfl (by decide +kernel)
      (fun v hv => plain_of (by
        have : ∀ v ∈ [ascii "a".toList], v.head? ≠ some 45 := by decide +kernel
        exact this v hv))
      (by
        intro w hw
        cases hw
        exact not_plain_letter (c := 102) (rest := ascii "text".toList) (Or.inr (by decide +kernel)))
      (.opts (os := [(_, [ascii "text".toList])]) (.short (w := ascii "ftext".toList) (.glued ⟨by decide +kernel, by decide +kernel⟩ (Or.inl rfl)
        (by decide +kernel) (by decide +kernel))) (.word (plain_of (by decide +kernel)) (.word (plain_of (by decide +kernel)) .nil))),
    by decide +kernel, by rintro ⟨s, h⟩; simp at h, by decide +kernel, ⟨[_, _], _, _, _, rfl, rfl⟩, Or.inl (by decide +kernel)⟩

/-- `ffp-select` with two words takes the word list from the standard input: it does what it does for a file with this
list, and no file is made for it. -/
theorem C74_select_stdin
    (T : Toml) (enum : List PyStr → List PyStr) (stdin : Bytes) (fs : FS) {argv : List PyStr} {is : List CmdItem}
    (hl : Line selectParser argv is) (hx : firstExit is = none) (hu : ¬ hasUnknown is) {input output : PyStr} (hp : positionals is = [input, output]) :
    ∃ f ignore lossy mmap, SaysFormat is (ascii "format".toList) .finalfusion f ∧
      SaysFlag is (ascii "ignore_unk".toList) ignore ∧ SaysFlag is (ascii "lossy".toList) lossy ∧
      SaysFlag is (ascii "mmap".toList) mmap ∧
      ∀ q, q ≠ input → q ≠ output →
        selectCli T enum stdin argv fs =
          .ok ((selectMain T enum f input output q ignore lossy mmap (withFile fs q stdin)).1, fun p =>
            if p = q then fs q else (selectMain T enum f input output q ignore lossy mmap (withFile fs q stdin)).2 p) := by
  obtain ⟨ns, h1, h2, h3⟩ := (parse_line sound_select hl).2.2 hx hu (Or.inl (by rw [hp]; rfl))
  have hin := h3 0 (positional (ascii "input".toList)) (by decide +kernel)
  have hout := h3 1 (positional (ascii "output".toList)) (by decide +kernel)
  have hq := h3 2 (optPositional (ascii "words".toList)) (by decide +kernel)
  rw [hp] at hin hout hq
  obtain ⟨f, s1, s2⟩ := says_format sound_select hl
    (a := formatArg (ascii "f".toList) (ascii "format".toList) formatNames Format.finalfusion.name) (by decide +kernel) rfl rfl rfl
    formatNames_ok rfl (h2 _ (by decide +kernel) (by decide +kernel) (by decide +kernel))
  have f1 := says_flag sound_select hl hx
    (a := flagArg [ascii "-l".toList, ascii "--lossy".toList] (ascii "lossy".toList)) (by decide +kernel) rfl rfl
    (h2 _ (by decide +kernel) (by decide +kernel) (by decide +kernel))
  have f2 := says_flag sound_select hl hx
    (a := flagArg [ascii "--mmap".toList] (ascii "mmap".toList)) (by decide +kernel) rfl rfl
    (h2 _ (by decide +kernel) (by decide +kernel) (by decide +kernel))
  have f3 := says_flag sound_select hl hx
    (a := flagArg [ascii "--ignore_unk".toList, ascii "-i".toList] (ascii "ignore_unk".toList)) (by decide +kernel) rfl rfl
    (h2 _ (by decide +kernel) (by decide +kernel) (by decide +kernel))
  refine ⟨f, _, _, _, s1, f3, f1, f2, fun q hq1 hq2 => ?_⟩
  have hin' := pathOf_str hin
  have hout' := pathOf_str hout
  have hop := openOf_stdin hq stdin fs
  simp only [positional, formatArg, flagArg, optPositional] at hin' hout' hop s2 ⊢
  rw [selectCli, h1]
  simp only [ex_bind_ok, loadArgs, hin', hout', hop, s2, selectMain, readFile_withFile hq1.symm]
  have hw : ∀ load : Bytes → Res (List PyStr), readFile q load (withFile fs q stdin) = load stdin := by
    intro load
    rw [readFile, withFile_self]
  simp only [hw]
  have hfs : fs = fun p => if p = q then fs q else withFile fs q stdin p := by
    funext p
    by_cases h : p = q
    · simp [h]
    · simp [h, withFile]
  rcases readFile input _ fs with x | e
  · simp only [ex_bind_error, ex_pure]
    rw [← hfs]
  · simp only [ex_bind_ok]
    rcases (textLines _ stdin).all with x | ls
    · simp only [ex_bind_error, ex_pure]
      rw [← hfs]
    · simp only [ex_bind_ok]
      rcases selectEmbeddings e _ input _ with x | e'
      · simp only [ex_pure]
        rw [← hfs]
      · simp only [ex_pure, writeFile]
        congr 2
        funext p
        by_cases h : p = q
        · simp [h, hq2]
        · simp [h, withFile]

/-- `ffp-select in -v out` -/
example : ∃ is, Line selectParser
      [ascii "in".toList, ascii "-v".toList, ascii "out".toList] is ∧
    firstExit is = none ∧ ¬ hasUnknown is ∧ positionals is = [ascii "in".toList, ascii "out".toList] ∧
    SaysFlag is (ascii "ignore_unk".toList) false :=
  ⟨[.word (ascii "in".toList), .opt (flagArg [ascii "--verbose".toList, ascii "-v".toList] (ascii "verbose".toList)) [],
    .word (ascii "out".toList)],
    .word (plain_of (by decide +kernel)) (.opts (os := [(_, [])])
      (.short (w := ascii "v".toList) (.switch ⟨by decide +kernel, by decide +kernel⟩ rfl)) (.word (plain_of (by decide +kernel)) .nil)),
    by decide +kernel, by rintro ⟨s, h⟩; simp at h, by decide +kernel, saysFlag_of (by decide +kernel)⟩

/-- `ffp-select` with three words, the last two standing next to each other, takes the word list from the third one.
Missing: words with options between them, see `C74_select_refuted`. -/
theorem C74_select_file_partial
    (T : Toml) (enum : List PyStr → List PyStr) (stdin : Bytes) (fs : FS) {argv : List PyStr} {is : List CmdItem}
    (hl : Line selectParser argv is) (hx : firstExit is = none) (hu : ¬ hasUnknown is) {input output q : PyStr} (hp : positionals is = [input, output, q])
    (hadj : Adjacent is 2) :
    ∃ f ignore lossy mmap, SaysFormat is (ascii "format".toList) .finalfusion f ∧
      SaysFlag is (ascii "ignore_unk".toList) ignore ∧ SaysFlag is (ascii "lossy".toList) lossy ∧
      SaysFlag is (ascii "mmap".toList) mmap ∧
      selectCli T enum stdin argv fs = .ok (selectMain T enum f input output q ignore lossy mmap fs) := by
  obtain ⟨ns, h1, h2, h3⟩ := (parse_line sound_select hl).2.2 hx hu (Or.inr ⟨by rw [hp]; rfl, by decide +kernel, hadj⟩)
  have hin := h3 0 (positional (ascii "input".toList)) (by decide +kernel)
  have hout := h3 1 (positional (ascii "output".toList)) (by decide +kernel)
  have hq := h3 2 (optPositional (ascii "words".toList)) (by decide +kernel)
  rw [hp] at hin hout hq
  obtain ⟨f, s1, s2⟩ := says_format sound_select hl
    (a := formatArg (ascii "f".toList) (ascii "format".toList) formatNames Format.finalfusion.name) (by decide +kernel) rfl rfl rfl
    formatNames_ok rfl (h2 _ (by decide +kernel) (by decide +kernel) (by decide +kernel))
  have f1 := says_flag sound_select hl hx
    (a := flagArg [ascii "-l".toList, ascii "--lossy".toList] (ascii "lossy".toList)) (by decide +kernel) rfl rfl
    (h2 _ (by decide +kernel) (by decide +kernel) (by decide +kernel))
  have f2 := says_flag sound_select hl hx
    (a := flagArg [ascii "--mmap".toList] (ascii "mmap".toList)) (by decide +kernel) rfl rfl
    (h2 _ (by decide +kernel) (by decide +kernel) (by decide +kernel))
  have f3 := says_flag sound_select hl hx
    (a := flagArg [ascii "--ignore_unk".toList, ascii "-i".toList] (ascii "ignore_unk".toList)) (by decide +kernel) rfl rfl
    (h2 _ (by decide +kernel) (by decide +kernel) (by decide +kernel))
  refine ⟨f, _, _, _, s1, f3, f1, f2, ?_⟩
  have hin' := pathOf_str hin
  have hout' := pathOf_str hout
  have hop := openOf_file hq stdin fs
  simp only [positional, formatArg, flagArg, optPositional] at hin' hout' hop s2 ⊢
  rw [selectCli, h1]
  simp only [ex_bind_ok, loadArgs, hin', hout', hop, s2, selectMain, readFile]
  rcases fs input with _ | bs
  · rfl
  · simp only
    rcases f.load T _ _ bs with x | e
    · rfl
    · simp only [ex_bind_ok]
      rcases fs q with _ | bs' <;> rfl

/-- `ffp-select -vi in -- -out words` -/
example : ∃ is, Line selectParser
      [ascii "-vi".toList, ascii "in".toList, ascii "--".toList, ascii "-out".toList, ascii "words".toList] is ∧
    firstExit is = none ∧ ¬ hasUnknown is ∧ positionals is = [ascii "in".toList, ascii "-out".toList, ascii "words".toList] ∧
    Adjacent is 2 ∧ SaysFlag is (ascii "ignore_unk".toList) true :=
  ⟨[.opt (flagArg [ascii "--verbose".toList, ascii "-v".toList] (ascii "verbose".toList)) [], .opt (flagArg [ascii "--ignore_unk".toList, ascii "-i".toList] (ascii "ignore_unk".toList)) [],
    .word (ascii "in".toList), .word (ascii "-out".toList), .word (ascii "words".toList)],
    .opts (os := [(_, []), (_, [])])
      (.short (w := ascii "vi".toList) (.more ⟨by decide +kernel, by decide +kernel⟩ rfl (by decide +kernel) (by decide +kernel)
        (.switch ⟨by decide +kernel, by decide +kernel⟩ rfl)))
      (.word (plain_of (by decide +kernel)) (.dashes (ws := [ascii "-out".toList, ascii "words".toList]) (by decide +kernel) (by decide +kernel))),
    by decide +kernel, by rintro ⟨s, h⟩; simp at h, by decide +kernel, ⟨[_, _, _], _, _, _, rfl, rfl⟩, saysFlag_of (by decide +kernel)⟩

/-- `ffp-convert` ends with the help or an error if an option says so; without opening a file, and so it
ends with an error if there are unknown options or not two words. -/
theorem C74_convert_exit [Remap] (T : Toml) (fs : FS) {argv : List PyStr} {is : List CmdItem} (hl : Line convertParser argv is) :
    (∀ x, firstExit is = some x → convertCli T argv fs = .error x) ∧
    (firstExit is = none → hasUnknown is ∨ (positionals is).length ≠ 2 →
      convertCli T argv fs = .error .usage) := by
  obtain ⟨h1, h2, -⟩ := parse_line sound_convert hl
  refine ⟨fun x hx => ?_, fun hx h => ?_⟩
  · rw [convertCli, h1 x hx]
    rfl
  · have hu : hasUnknown is ∨ ¬ WordsFit convertParser is := by
      rcases h with h | h
      · exact Or.inl h
      · refine Or.inr fun hf => ?_
        rcases hf with hf | ⟨-, hf, -⟩
        · exact h hf
        · exact hf (by decide +kernel)
    rw [convertCli, h2 hx hu]
    rfl

/-- `ffp-convert in --he -f pdf` prints the help; `ffp-convert -f pdf --he` does not. -/
example : (∃ is, Line convertParser [ascii "in".toList, ascii "--he".toList, ascii "-f".toList, ascii "pdf".toList] is ∧ firstExit is = some .help) ∧
    ∃ is, Line convertParser [ascii "-f".toList, ascii "pdf".toList, ascii "--he".toList] is ∧ firstExit is = some .usage :=
  ⟨⟨[.word (ascii "in".toList), .opt helpAct [], .opt (formatArg (ascii "f".toList) (ascii "from".toList) formatNames Format.word2vec.name) [ascii "pdf".toList]],
    .word (plain_of (by decide +kernel)) (.opts (os := [(_, [])])
      (.long ⟨by decide +kernel, by decide +kernel, by decide +kernel, Or.inr ⟨ascii "--help".toList,
        ⟨by decide +kernel, by decide +kernel⟩, by decide +kernel, abbrev_of (by decide +kernel)⟩⟩ rfl)
      (.one (os := []) (.short (w := ascii "f".toList) (.next ⟨by decide +kernel, by decide +kernel⟩ (Or.inl rfl))) rfl (plain_of (by decide +kernel)) .nil)),
    by decide +kernel⟩,
   ⟨[.opt (formatArg (ascii "f".toList) (ascii "from".toList) formatNames Format.word2vec.name) [ascii "pdf".toList], .opt helpAct []],
    .one (os := []) (.short (w := ascii "f".toList) (.next ⟨by decide +kernel, by decide +kernel⟩ (Or.inl rfl))) rfl (plain_of (by decide +kernel))
      (.opts (os := [(_, [])])
      (.long ⟨by decide +kernel, by decide +kernel, by decide +kernel, Or.inr ⟨ascii "--help".toList,
        ⟨by decide +kernel, by decide +kernel⟩, by decide +kernel, abbrev_of (by decide +kernel)⟩⟩ rfl) .nil),
    by decide +kernel⟩⟩

/-- `ffp-bucket-to-explicit` ends with the help or an error if an option says so; without opening a file, and so it
ends with an error if there are unknown options or not two words. -/
theorem C74_bucket_exit (T : Toml) (fs : FS) {argv : List PyStr} {is : List CmdItem} (hl : Line bucketParser argv is) :
    (∀ x, firstExit is = some x → bucketToExplicitCli T argv fs = .error x) ∧
    (firstExit is = none → hasUnknown is ∨ (positionals is).length ≠ 2 →
      bucketToExplicitCli T argv fs = .error .usage) := by
  obtain ⟨h1, h2, -⟩ := parse_line sound_bucket hl
  refine ⟨fun x hx => ?_, fun hx h => ?_⟩
  · rw [bucketToExplicitCli, h1 x hx]
    rfl
  · have hu : hasUnknown is ∨ ¬ WordsFit bucketParser is := by
      rcases h with h | h
      · exact Or.inl h
      · refine Or.inr fun hf => ?_
        rcases hf with hf | ⟨-, hf, -⟩
        · exact h hf
        · exact hf (by decide +kernel)
    rw [bucketToExplicitCli, h2 hx hu]
    rfl

/-- `ffp-bucket-to-explicit in` -/
example (T : Toml) (fs : FS) : bucketToExplicitCli T [ascii "in".toList] fs = .error .usage :=
  (C74_bucket_exit T fs (is := [.word (ascii "in".toList)]) (.word (plain_of (by decide +kernel)) .nil)).2
    (by decide +kernel) (Or.inr (by decide +kernel))

/-- `ffp-similar` ends with the help or an error if an option says so; without opening a file, and so it
ends with an error if there are unknown options or neither one word nor two words next to each other. -/
theorem C74_similar_exit (T : Toml) (S : Sel F32) (stdin : Bytes) (fs : FS) {argv : List PyStr} {is : List CmdItem} (hl : Line similarParser argv is) :
    (∀ x, firstExit is = some x → similarCli T S stdin argv fs = .error x) ∧
    (firstExit is = none → hasUnknown is ∨ ((positionals is).length ≠ 1 ∧ ¬ ((positionals is).length = 2 ∧ Adjacent is 1)) →
      similarCli T S stdin argv fs = .error .usage) := by
  obtain ⟨h1, h2, -⟩ := parse_line sound_similar hl
  refine ⟨fun x hx => ?_, fun hx h => ?_⟩
  · rw [similarCli, h1 x hx]
    rfl
  · have hu : hasUnknown is ∨ ¬ WordsFit similarParser is := by
      rcases h with h | ⟨h, h'⟩
      · exact Or.inl h
      · refine Or.inr fun hf => ?_
        rcases hf with hf | ⟨hf, -, hf'⟩
        · exact h hf
        · exact h' ⟨hf, hf'⟩
    rw [similarCli, h2 hx hu]
    rfl

/-- `ffp-similar -x emb` has an unknown option, `ffp-similar a b c` too many words, `ffp-similar emb -k` no number. -/
example : (∃ is, Line similarParser [ascii "-x".toList, ascii "emb".toList] is ∧ firstExit is = none ∧ hasUnknown is) ∧
    (∃ is, Line similarParser [ascii "a".toList, ascii "b".toList, ascii "c".toList] is ∧ firstExit is = none ∧ ¬ hasUnknown is ∧
      (positionals is).length = 3) ∧
    ∃ is, Line similarParser [ascii "emb".toList, ascii "-k".toList] is ∧ firstExit is = some .usage :=
  ⟨⟨[.unknown (ascii "-x".toList), .word (ascii "emb".toList)],
    .unknown ⟨120, [], by decide +kernel, by decide +kernel, by decide +kernel, by decide +kernel, by decide +kernel,
      unknown_of (by decide +kernel)⟩ (.word (plain_of (by decide +kernel)) .nil), by decide +kernel, _, List.mem_cons_self⟩,
   ⟨[.word (ascii "a".toList), .word (ascii "b".toList), .word (ascii "c".toList)],
    .word (plain_of (by decide +kernel)) (.word (plain_of (by decide +kernel)) (.word (plain_of (by decide +kernel)) .nil)),
    by decide +kernel, by rintro ⟨s, h⟩; simp at h, by decide +kernel⟩,
   ⟨[.word (ascii "emb".toList), .opt kArg []],
    .word (plain_of (by decide +kernel)) (.missing (.short (w := ascii "k".toList) (.next ⟨by decide +kernel, by decide +kernel⟩ (Or.inl rfl)))
      (by intro w hw; cases hw) .nil), by decide +kernel⟩⟩

/-- `ffp-analogy` ends with the help or an error if an option says so; without opening a file, and so it
ends with an error if there are unknown options or neither one word nor two words next to each other. -/
theorem C74_analogy_exit (T : Toml) (S : Sel F32) (stdin : Bytes) (fs : FS) {argv : List PyStr} {is : List CmdItem} (hl : Line analogyParser argv is) :
    (∀ x, firstExit is = some x → analogyCli T S stdin argv fs = .error x) ∧
    (firstExit is = none → hasUnknown is ∨ ((positionals is).length ≠ 1 ∧ ¬ ((positionals is).length = 2 ∧ Adjacent is 1)) →
      analogyCli T S stdin argv fs = .error .usage) := by
  obtain ⟨h1, h2, -⟩ := parse_line sound_analogy hl
  refine ⟨fun x hx => ?_, fun hx h => ?_⟩
  · rw [analogyCli, h1 x hx]
    rfl
  · have hu : hasUnknown is ∨ ¬ WordsFit analogyParser is := by
      rcases h with h | ⟨h, h'⟩
      · exact Or.inl h
      · refine Or.inr fun hf => ?_
        rcases hf with hf | ⟨hf, -, hf'⟩
        · exact h hf
        · exact h' ⟨hf, hf'⟩
    rw [analogyCli, h2 hx hu]
    rfl

/-- `ffp-select` ends with the help or an error if an option says so; without opening a file, and so it
ends with an error if there are unknown options or neither two words nor three with the last two next to each other. -/
theorem C74_select_exit (T : Toml) (enum : List PyStr → List PyStr) (stdin : Bytes) (fs : FS) {argv : List PyStr} {is : List CmdItem} (hl : Line selectParser argv is) :
    (∀ x, firstExit is = some x → selectCli T enum stdin argv fs = .error x) ∧
    (firstExit is = none → hasUnknown is ∨ ((positionals is).length ≠ 2 ∧ ¬ ((positionals is).length = 3 ∧ Adjacent is 2)) →
      selectCli T enum stdin argv fs = .error .usage) := by
  obtain ⟨h1, h2, -⟩ := parse_line sound_select hl
  refine ⟨fun x hx => ?_, fun hx h => ?_⟩
  · rw [selectCli, h1 x hx]
    rfl
  · have hu : hasUnknown is ∨ ¬ WordsFit selectParser is := by
      rcases h with h | ⟨h, h'⟩
      · exact Or.inl h
      · refine Or.inr fun hf => ?_
        rcases hf with hf | ⟨hf, -, hf'⟩
        · exact h hf
        · exact h' ⟨hf, hf'⟩
    rw [selectCli, h2 hx hu]
    rfl

omit [NumOps F32] [NumText F32] [TextIO] in
/-- Words that are no options make a command line. -/
theorem C74_words (acts : List Act) : ∀ argv : List PyStr, (∀ w ∈ argv, PlainWord w) → Line acts argv (argv.map .word) := by
  intro argv
  induction argv with
  | nil => exact fun _ => .nil
  | cons w ws ih =>
    exact fun h => .word (h w List.mem_cons_self) (ih fun v hv => h v (List.mem_cons_of_mem _ hv))

omit [NumOps F32] [NumText F32] [TextIO] in
theorem not_adjacent_opt {e q : PyStr} {a : Act} {vs : List PyStr} : ¬ Adjacent [.word e, .opt a vs, .word q] 1 := by
  rintro ⟨pre, x, y, post, h, -⟩
  rcases pre with _ | ⟨i, _ | ⟨j, _ | ⟨k, _ | ⟨l, pre⟩⟩⟩⟩ <;> simp at h

omit [NumOps F32] [NumText F32] [TextIO] in
theorem not_adjacent_opt' {e o q : PyStr} {a : Act} {vs : List PyStr} :
    ¬ Adjacent [.word e, .word o, .opt a vs, .word q] 2 := by
  rintro ⟨pre, x, y, post, h, h'⟩
  rcases pre with _ | ⟨i, _ | ⟨j, _ | ⟨k, _ | ⟨l, pre⟩⟩⟩⟩ <;> simp at h
  simp [positionals] at h'

/-- `ffp-similar EMBEDDINGS -k 5 QUERIES` is rejected, whatever the files are. -/
theorem C74_similar_refuted (e q : PyStr) (he : PlainWord e) (hq : PlainWord q) :
    ∃ is, Line similarParser [e, ascii "-k".toList, ascii "5".toList, q] is ∧ firstExit is = none ∧ ¬ hasUnknown is ∧
      positionals is = [e, q] ∧ SaysK is 5 ∧
      ∀ (T : Toml) (S : Sel F32) (stdin : Bytes) (fs : FS),
        similarCli T S stdin [e, ascii "-k".toList, ascii "5".toList, q] fs = .error .usage := by
  have hl : Line similarParser [e, ascii "-k".toList, ascii "5".toList, q]
      [.word e, .opt kArg [ascii "5".toList], .word q] :=
    .word he (.one (os := []) (.short (w := ascii "k".toList) (.next ⟨by decide +kernel, by decide +kernel⟩ (Or.inl rfl))) rfl
      (plain_of (by decide +kernel)) (.word hq .nil))
  have hx : firstExit [.word e, .opt kArg [ascii "5".toList], .word q] = none := by
    rw [firstExit_word, firstExit_ok (v := .int 5) (by decide +kernel)]
    rfl
  refine ⟨_, hl, hx, by simp [hasUnknown], rfl, Or.inl ?_, fun T S stdin fs => ?_⟩
  · rw [lastGiven_word, lastGiven_opt (v := .int 5) (by decide +kernel), if_pos (by decide +kernel)]
    rfl
  · exact (C74_similar_exit T S stdin fs hl).2 hx (Or.inr ⟨of_decide_eq_true rfl, fun h => not_adjacent_opt h.2⟩)

/-- `ffp-analogy EMBEDDINGS -k 5 QUERIES` is rejected, whatever the files are. -/
theorem C74_analogy_refuted (e q : PyStr) (he : PlainWord e) (hq : PlainWord q) :
    ∃ is, Line analogyParser [e, ascii "-k".toList, ascii "5".toList, q] is ∧ firstExit is = none ∧ ¬ hasUnknown is ∧
      positionals is = [e, q] ∧ SaysK is 5 ∧
      ∀ (T : Toml) (S : Sel F32) (stdin : Bytes) (fs : FS),
        analogyCli T S stdin [e, ascii "-k".toList, ascii "5".toList, q] fs = .error .usage := by
  have hl : Line analogyParser [e, ascii "-k".toList, ascii "5".toList, q]
      [.word e, .opt kArg [ascii "5".toList], .word q] :=
    .word he (.one (os := []) (.short (w := ascii "k".toList) (.next ⟨by decide +kernel, by decide +kernel⟩ (Or.inl rfl))) rfl
      (plain_of (by decide +kernel)) (.word hq .nil))
  have hx : firstExit [.word e, .opt kArg [ascii "5".toList], .word q] = none := by
    rw [firstExit_word, firstExit_ok (v := .int 5) (by decide +kernel)]
    rfl
  refine ⟨_, hl, hx, by simp [hasUnknown], rfl, Or.inl ?_, fun T S stdin fs => ?_⟩
  · rw [lastGiven_word, lastGiven_opt (v := .int 5) (by decide +kernel), if_pos (by decide +kernel)]
    rfl
  · exact (C74_analogy_exit T S stdin fs hl).2 hx (Or.inr ⟨of_decide_eq_true rfl, fun h => not_adjacent_opt h.2⟩)

/-- `ffp-select INPUT OUTPUT -i WORDS` is rejected, whatever the files are. -/
theorem C74_select_refuted (input output words : PyStr) (hi : PlainWord input) (ho : PlainWord output) (hw : PlainWord words) :
    ∃ is, Line selectParser [input, output, ascii "-i".toList, words] is ∧ firstExit is = none ∧ ¬ hasUnknown is ∧
      positionals is = [input, output, words] ∧ SaysFlag is (ascii "ignore_unk".toList) true ∧
      ∀ (T : Toml) (enum : List PyStr → List PyStr) (stdin : Bytes) (fs : FS),
        selectCli T enum stdin [input, output, ascii "-i".toList, words] fs = .error .usage := by
  have hl : Line selectParser [input, output, ascii "-i".toList, words]
      [.word input, .word output,
        .opt (flagArg [ascii "--ignore_unk".toList, ascii "-i".toList] (ascii "ignore_unk".toList)) [], .word words] :=
    .word hi (.word ho (.opts
      (os := [(flagArg [ascii "--ignore_unk".toList, ascii "-i".toList] (ascii "ignore_unk".toList), [])])
      (.short (w := ascii "i".toList) (.switch ⟨by decide +kernel, by decide +kernel⟩ rfl)) (.word hw .nil)))
  have hm : meaning (flagArg [ascii "--ignore_unk".toList, ascii "-i".toList] (ascii "ignore_unk".toList)) [] =
      .ok (.bool true) := rfl
  have hx : firstExit [.word input, .word output,
      .opt (flagArg [ascii "--ignore_unk".toList, ascii "-i".toList] (ascii "ignore_unk".toList)) [], .word words] = none := by
    rw [firstExit_word, firstExit_word, firstExit_ok hm]
    rfl
  refine ⟨_, hl, hx, by simp [hasUnknown], rfl, ?_, fun T enum stdin fs => ?_⟩
  · exact ⟨fun _ => ⟨_, _, List.mem_cons_of_mem _ (List.mem_cons_of_mem _ List.mem_cons_self), rfl⟩, fun _ => rfl⟩
  · exact (C74_select_exit T enum stdin fs hl).2 hx (Or.inr ⟨of_decide_eq_true rfl, fun h => not_adjacent_opt' h.2⟩)

/-- `-i` takes everything up to the next option: `ffp-analogy -i a EMBEDDINGS` is rejected. -/
theorem C74_include_refuted (T : Toml) (S : Sel F32) (stdin : Bytes) (fs : FS) (e : PyStr) (he : PlainWord e)
    (hc : e ∉ [ascii "a".toList, ascii "b".toList, ascii "c".toList]) :
    analogyCli T S stdin [ascii "-i".toList, ascii "a".toList, e] fs = .error .usage := by
  have hl : Line analogyParser [ascii "-i".toList, ascii "a".toList, e]
      [.opt includeArg [ascii "a".toList, e]] :=
    .plus (os := []) (vs := [ascii "a".toList, e]) (ws := [])
      (.short (w := ascii "i".toList) (.next ⟨by decide +kernel, by decide +kernel⟩ (Or.inr rfl))) rfl (by simp)
      (by
        intro v hv
        rcases List.mem_cons.1 hv with h | h
        · rw [h]
          exact plain_of (by decide +kernel)
        · rw [List.mem_singleton.1 h]
          exact he)
      (by intro w hw; cases hw) .nil
  have hm : meaning includeArg [ascii "a".toList, e] = .error .usage := by
    have hch : includeArg.choices = some [ascii "a".toList, ascii "b".toList, ascii "c".toList] := by decide +kernel
    have hk : includeArg.kind = .store := rfl
    unfold meaning
    simp only [hk]
    rw [if_neg]
    rintro ⟨-, h⟩
    exact hc (h e (List.mem_cons_of_mem _ List.mem_cons_self) _ hch)
  exact (C74_analogy_exit T S stdin fs hl).1 .usage (firstExit_error hm _)

/-- With `--` it is not. -/
theorem C74_include (T : Toml) (S : Sel F32) (stdin : Bytes) (fs : FS) (e q : PyStr) (he : e ≠ ascii "--".toList) (hq : q ≠ e) :
    analogyCli T S stdin [ascii "-i".toList, ascii "a".toList, ascii "--".toList, e] fs =
      .ok (analogyMain T S .finalfusion e q 10 [ascii "a".toList] false false (withFile fs q stdin)) := by
  have hl : Line analogyParser [ascii "-i".toList, ascii "a".toList, ascii "--".toList, e]
      [.opt includeArg [ascii "a".toList], .word e] :=
    .plus (os := []) (vs := [ascii "a".toList]) (ws := [ascii "--".toList, e])
      (.short (w := ascii "i".toList) (.next ⟨by decide +kernel, by decide +kernel⟩ (Or.inr rfl))) rfl (by simp)
      (by
        intro v hv
        rw [List.mem_singleton.1 hv]
        exact plain_of (by decide +kernel))
      (by
        intro w hw h
        cases hw
        exact h.ne_dashes (by decide +kernel))
      (.dashes (ws := [e]) (by simp) (by
        simp only [List.mem_singleton]
        intro h
        exact he (h.symm.trans (by decide +kernel))))
  have hm : meaning includeArg [ascii "a".toList] = .ok (.list [ascii "a".toList]) := by decide +kernel
  obtain ⟨f, k, incs, lossy, mmap, h1, h2, h3, h4, h5, h6⟩ :=
    C74_analogy_stdin T S stdin fs hl (by rw [firstExit_ok hm]; rfl) (by simp [hasUnknown]) rfl
  have hd : includeArg.dest = ascii "include".toList := rfl
  have hf : f = .finalfusion := by
    rcases h1 with h | ⟨-, h⟩
    · rw [lastGiven_opt hm, if_neg (by decide +kernel)] at h
      cases h
    · exact h
  have hk : k = 10 := by
    rcases h2 with h | ⟨-, h⟩
    · rw [lastGiven_opt hm, if_neg (by decide +kernel)] at h
      cases h
    · exact h
  have hi : incs = [ascii "a".toList] := by
    rcases h3 with h | ⟨h, -⟩
    · rw [lastGiven_opt hm, if_pos hd] at h
      cases h
      rfl
    · rw [lastGiven_opt hm, if_pos hd] at h
      cases h
  have hlo : lossy = false := by
    rw [Bool.eq_false_iff]
    intro h
    obtain ⟨a, args, ha, hda⟩ := h4.1 h
    simp only [List.mem_cons, CmdItem.opt.injEq, reduceCtorEq, List.not_mem_nil, or_false] at ha
    rw [ha.1] at hda
    exact absurd hda (by decide +kernel)
  have hmm : mmap = false := by
    rw [Bool.eq_false_iff]
    intro h
    obtain ⟨a, args, ha, hda⟩ := h5.1 h
    simp only [List.mem_cons, CmdItem.opt.injEq, reduceCtorEq, List.not_mem_nil, or_false] at ha
    rw [ha.1] at hda
    exact absurd hda (by decide +kernel)
  subst hf hk hi hlo hmm
  exact h6 q hq

end

/-- The tools have the options that they document, and no others. -/
theorem C74_options (t : Tool) (f d : PyStr) :
    (∃ a, IsFlag t.parser f a ∧ a.dest = d) ↔ ∃ o ∈ t.options, f = ascii o.1.toList ∧ d = ascii o.2.toList := by
  have h : ∀ t : Tool, (t.parser.flatMap fun a => a.flags.map fun f => (f, a.dest)) =
      t.options.map fun o => (ascii o.1.toList, ascii o.2.toList) := by
    intro t
    cases t <;> decide +kernel
  have h1 : (∃ a, IsFlag t.parser f a ∧ a.dest = d) ↔
      (f, d) ∈ t.parser.flatMap fun a => a.flags.map fun f => (f, a.dest) := by
    simp only [IsFlag, List.mem_flatMap, List.mem_map, Prod.mk.injEq]
    constructor
    · rintro ⟨a, ⟨ha, hf⟩, hd⟩
      exact ⟨a, ha, f, hf, rfl, hd⟩
    · rintro ⟨a, ha, g, hf, rfl, hd⟩
      exact ⟨a, ⟨ha, hf⟩, hd⟩
  rw [h1, h t]
  simp only [List.mem_map, Prod.mk.injEq]
  constructor
  · rintro ⟨o, ho, e1, e2⟩
    exact ⟨o, ho, e1.symm, e2.symm⟩
  · rintro ⟨o, ho, e1, e2⟩
    exact ⟨o, ho, e1.symm, e2.symm⟩

/-- Where formats are chosen, they are chosen by these names: all five for most tools, finalfusion and fastText for
`ffp-bucket-to-explicit`. -/
theorem C74_choices (t : Tool) (a : Act) (ha : a ∈ t.parser)
    (hd : a.dest = ascii "from".toList ∨ a.dest = ascii "to".toList ∨ a.dest = ascii "format".toList) :
    ∃ cs, a.choices = some cs ∧ ∀ s, s ∈ cs ↔
      ∃ f : Format, s = ascii (formatText f) ∧ (t = .bucketToExplicit → f = .finalfusion ∨ f = .fasttext) := by
  have hc : ∀ (t : Tool), ∀ a ∈ t.parser,
      (a.dest = ascii "from".toList ∨ a.dest = ascii "to".toList ∨ a.dest = ascii "format".toList) →
      a.choices = some (if t = .bucketToExplicit then [ascii (formatText .finalfusion), ascii (formatText .fasttext)]
        else [Format.word2vec, .finalfusion, .fasttext, .text, .textdims].map fun f => ascii (formatText f)) := by
    intro t
    cases t <;> decide +kernel
  refine ⟨_, hc t a ha hd, fun s => ?_⟩
  by_cases ht : t = .bucketToExplicit
  · rw [if_pos ht]
    simp only [List.mem_cons, List.not_mem_nil, or_false]
    constructor
    · rintro (rfl | rfl)
      · exact ⟨.finalfusion, rfl, fun _ => .inl rfl⟩
      · exact ⟨.fasttext, rfl, fun _ => .inr rfl⟩
    · rintro ⟨f, rfl, h⟩
      rcases h ht with rfl | rfl
      · exact .inl rfl
      · exact .inr rfl
  · rw [if_neg ht]
    simp only [List.mem_map]
    constructor
    · rintro ⟨f, _, rfl⟩
      exact ⟨f, rfl, fun h => (ht h).elim⟩
    · rintro ⟨f, rfl, _⟩
      exact ⟨f, by cases f <;> simp, rfl⟩

/-- Words that begin with a dash and are no options are taken for negative numbers under this condition. -/
theorem C74_negative (s : PyStr) : looksNegative s = true ↔ NegNumber s := by
  have dig : ∀ c : Code, (digitVal c).isSome = true ↔ ∃ v, Digit c v := by
    intro c
    rw [Option.isSome_iff_exists]
    exact exists_congr fun v => digitVal_digit
  have nl : ∀ {c : Code}, (∃ v, Digit c v) → c ≠ 10 := by
    rintro c hc rfl
    have := (dig 10).mpr hc
    revert this
    decide +kernel
  have pt : ¬ ∃ v, Digit 46 v := fun h => by
    have := (dig 46).mpr h
    revert this
    decide +kernel
  -- the condition without the newline
  have core : ∀ t : PyStr, (match t with
      | [] => false
      | c :: cs => c = 45 && ((cs ≠ [] && cs.all fun c => (digitVal c).isSome) ||
        match cs.dropWhile fun c => (digitVal c).isSome with
        | [] => false
        | d :: ds => d = 46 && ds ≠ [] && ds.all fun c => (digitVal c).isSome)) = true ↔
      ∃ ds : PyStr, (∀ c ∈ ds, ∃ v, Digit c v) ∧ ((ds ≠ [] ∧ t = 45 :: ds) ∨
        ∃ es : PyStr, es ≠ [] ∧ (∀ c ∈ es, ∃ v, Digit c v) ∧ t = 45 :: (ds ++ 46 :: es)) := by
    intro t
    cases t with
    | nil => simp
    | cons c cs =>
      simp only [Bool.and_eq_true, Bool.or_eq_true, decide_eq_true_eq, List.all_eq_true, dig]
      constructor
      · rintro ⟨rfl, h | h⟩
        · exact ⟨cs, h.2, .inl ⟨h.1, rfl⟩⟩
        · have hd := List.takeWhile_append_dropWhile (p := fun c : Code => (digitVal c).isSome) (l := cs)
          split at h
          · cases h
          · rename_i d ds he
            simp only [Bool.and_eq_true, decide_eq_true_eq, List.all_eq_true, dig] at h
            obtain ⟨⟨rfl, h2⟩, h3⟩ := h
            rw [he] at hd
            refine ⟨_, fun c hc => ?_, .inr ⟨ds, h2, h3, by rw [hd]⟩⟩
            have := List.all_takeWhile (p := fun c : Code => (digitVal c).isSome) (l := cs)
            exact (dig c).mp (List.all_eq_true.mp this c hc)
      · rintro ⟨ds, h1, ⟨h2, h3⟩ | ⟨es, h2, h3, h4⟩⟩
        · cases h3
          exact ⟨rfl, .inl ⟨h2, h1⟩⟩
        · cases h4
          refine ⟨rfl, .inr ?_⟩
          have : (ds ++ 46 :: es).dropWhile (fun c : Code => (digitVal c).isSome) = 46 :: es := by
            rw [List.dropWhile_append_of_pos fun c hc => (dig c).mpr (h1 c hc), List.dropWhile_cons_of_neg]
            rw [dig]
            exact pt
          rw [this]
          simp only [Bool.and_eq_true, decide_eq_true_eq, List.all_eq_true, dig]
          exact ⟨⟨trivial, h2⟩, h3⟩
  refine (core (if s.getLast? = some 10 then s.dropLast else s)).trans ?_
  have last : ∀ {t : PyStr}, (∃ ds : PyStr, (∀ c ∈ ds, ∃ v, Digit c v) ∧ ((ds ≠ [] ∧ t = 45 :: ds) ∨
        ∃ es : PyStr, es ≠ [] ∧ (∀ c ∈ es, ∃ v, Digit c v) ∧ t = 45 :: (ds ++ 46 :: es))) → t.getLast? ≠ some 10 := by
    rintro t ⟨ds, h1, ⟨h2, rfl⟩ | ⟨es, h2, h3, rfl⟩⟩ he
    · rw [List.getLast?_cons, Option.some.injEq, List.getLast?_eq_some_getLast h2, Option.getD_some] at he
      exact nl (h1 _ (List.getLast_mem h2)) he
    · have : (45 :: (ds ++ 46 :: es) : PyStr) = (45 :: (ds ++ [46])) ++ es := by simp
      rw [this, List.getLast?_append, List.getLast?_eq_some_getLast h2] at he
      simp only [Option.some_or, Option.some.injEq] at he
      exact nl (h3 _ (List.getLast_mem h2)) he
  by_cases hl : s.getLast? = some 10
  · rw [if_pos hl]
    have hs : s = s.dropLast ++ [10] := by
      obtain ⟨l, rfl⟩ := List.getLast?_eq_some_iff.mp hl
      simp
    generalize s.dropLast = t at hs
    subst hs
    constructor
    · rintro ⟨ds, h1, ⟨h2, rfl⟩ | ⟨es, h2, h3, rfl⟩⟩
      · exact ⟨ds, [10], h1, .inr rfl, .inl ⟨h2, rfl⟩⟩
      · exact ⟨ds, [10], h1, .inr rfl, .inr ⟨es, h2, h3, by simp⟩⟩
    · rintro ⟨ds, tail, h1, rfl | rfl, h⟩
      · exact (last ⟨ds, h1, by simpa using h⟩ hl).elim
      · refine ⟨ds, h1, ?_⟩
        rcases h with ⟨h2, h3⟩ | ⟨es, h2, h3, h4⟩
        · left
          refine ⟨h2, ?_⟩
          have : t ++ [10] = (45 :: ds) ++ [10] := by rw [h3]; simp
          exact List.append_cancel_right this
        · right
          refine ⟨es, h2, h3, ?_⟩
          have : t ++ [10] = (45 :: (ds ++ 46 :: es)) ++ [10] := by rw [h4]; simp
          exact List.append_cancel_right this
  · rw [if_neg hl]
    constructor
    · rintro ⟨ds, h1, ⟨h2, rfl⟩ | ⟨es, h2, h3, rfl⟩⟩
      · exact ⟨ds, [], h1, .inl rfl, .inl ⟨h2, by simp⟩⟩
      · exact ⟨ds, [], h1, .inl rfl, .inr ⟨es, h2, h3, by simp⟩⟩
    · rintro ⟨ds, tail, h1, rfl | rfl, h⟩
      · exact ⟨ds, h1, by simpa using h⟩
      · exfalso
        apply hl
        rcases h with ⟨h2, h3⟩ | ⟨es, h2, h3, h4⟩
        · rw [h3, ← List.cons_append, List.getLast?_append]
          rfl
        · have : s = (45 :: (ds ++ 46 :: es)) ++ [10] := by rw [h4]; simp
          rw [this, List.getLast?_append]
          rfl

/-- `-1`, `-.5` and `-1.25` with a newline are numbers; `-`, `-.` and `-1.` are not. -/
example : looksNegative (ascii "-1".toList) = true ∧ looksNegative (ascii "-.5".toList) = true ∧
    looksNegative (ascii "-1.25".toList ++ [10]) = true ∧ looksNegative (ascii "-".toList) = false ∧
    looksNegative (ascii "-".toList ++ [10]) = false ∧ looksNegative (ascii "-.".toList) = false ∧
    looksNegative (ascii "-1.".toList) = false := by decide +kernel

end FF
