import Verif.Spec.Pieces
/-
Cuts of the input into chunks that leave the pieces recognisable.
-/
namespace Kolombos.Spec
open Kolombos

/-- Runs of 7-bit characters of one kind: each character is displayed on its own. -/
def Divisible : Kind → Bool
  | .null | .backspace | .delete | .ctrl | .tab | .vertTab | .formFeed | .carrReturn | .space | .printable => true
  | _ => false

/-- The cut between `a` and `b` falls between two pieces of the whole, or within a run of
7-bit characters: neither into an escape sequence nor into a UTF-8 sequence nor into a
run of other 8-bit bytes. -/
def SafeCut (a b : Bytes) : Prop :=
  ∃ A B : List (Kind × Bytes),
    (pieces (a ++ b) = A ++ B ∧ (A.map Prod.snd).flatten = a) ∨
    ∃ k u v, Divisible k = true ∧ u ≠ [] ∧ v ≠ [] ∧ pieces (a ++ b) = A ++ (k, u ++ v) :: B ∧ (A.map Prod.snd).flatten ++ u = a

/-- Each chunk is cut off safely from all that follows. -/
def SafeChunks : List Bytes → Prop
  | [] => True
  | c :: cs => SafeCut c cs.flatten ∧ SafeChunks cs

/-- Chunks of standard input whose cuts do no harm: there is one chunk, or all bytes are plain 7-bit text
without escape characters, or every chunk but the last one is a number of complete lines. -/
def TameChunks (cs : List Bytes) : Prop :=
  cs.length ≤ 1 ∨ (∀ c ∈ cs, ∀ x ∈ c, x ≠ 0x1b ∧ x.toNat < 0x80) ∨ ∀ c ∈ cs.dropLast, c.getLast? = some 0x0a

end Kolombos.Spec
