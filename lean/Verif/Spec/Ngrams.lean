import Verif.Model.Utf8
/-!
# N-grams and hashes, specified without the loops of the code
-/

namespace FF

/-- The word between `<` (U+003C) and `>` (U+003E), or the word itself. -/
def wrap (bracket : Bool) (w : PyStr) : PyStr :=
  if bracket then [⟨60, by decide⟩] ++ w ++ [⟨62, by decide⟩] else w

/-- `gs` lists the substrings of `w` with a length from `lo` to `hi`: one entry for every
occurrence (start, length), by ascending start, for the same start by descending length. -/
def NgramsOf (w : PyStr) (lo hi : Nat) (gs : List PyStr) : Prop :=
  ∃ occ : List (Nat × Nat),
    gs = occ.map (fun p => (w.drop p.1).take p.2) ∧
    (∀ start len, (start, len) ∈ occ ↔ lo ≤ len ∧ len ≤ hi ∧ start + len ≤ w.length) ∧
    occ.Pairwise (fun p q => p.1 < q.1 ∨ p.1 = q.1 ∧ q.2 < p.2)

/-- Little-endian bytes: digit `i` of `n` in base 256. -/
def leBytes (width n : Nat) : List Nat := (List.range width).map fun i => n / 256 ^ i % 256

/-- FNV-1a with 64 bits (offset basis and prime of the published algorithm). -/
def fnv1a64 (bytes : List Nat) : Nat :=
  bytes.foldl (fun h b => (h ^^^ b) * 1099511628211 % 2 ^ 64) 14695981039346656037

/-- FNV-1a with 32 bits on 32-bit words. -/
def fnv1a32 (ws : List Nat) : Nat :=
  ws.foldl (fun h b => (h ^^^ b) * 16777619 % 2 ^ 32) 2166136261

/-- A byte as a two's complement 8-bit number, extended to 32 bits. -/
def sext (b : Nat) : Nat := if b < 128 then b else 2 ^ 32 - (256 - b)

end FF
