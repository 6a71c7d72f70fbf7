import Verif.Model.App
import Verif.Spec.Pieces
import Verif.Spec.Reader
import Verif.Spec.Params
/-
Runs of the application on a sequence of chunks, as an observer sees them.
-/
namespace Kolombos
open Spec

/-- Processing a sequence of chunks from the start (the reader calls
`_process_chunk_buffered` once per chunk, see `C38_delivery`): what is printed and
how it ends. -/
def session (fuel : Nat) (s : Settings) (term : Nat → Int) (es : List ReadEvent) : Run State :=
  playEvents (processChunk fuel (Config.create s) term) es {}

/-- A complete input: chunks, the last one and only that marked as the end. -/
def Complete (es : List ReadEvent) : Prop := ∃ a e, es = a ++ [e] ∧ e.finish = true ∧ ∀ x ∈ a, x.finish = false

/-- Chunks before the end of the input. -/
def Unfinished (es : List ReadEvent) : Prop := ∀ e ∈ es, e.finish = false

/-- The chunk contains an SGR sequence with a parameter that is not a number. -/
def BadChunk (raw : Bytes) : Prop :=
  ∃ q ∈ pieces raw, ∃ ps, IsCsi ps 0x6d q.2 ∧ BadParams ps

/-- No chunk does. -/
def Readable (es : List ReadEvent) : Prop := ∀ e ∈ es, ¬ BadChunk e.data

/-- At every call the number of columns is positive. -/
def PosCols (s : Settings) (term : Nat → Int) : Prop := ∀ k off, 0 < BinaryFormatter.curCols s (term k) off

end Kolombos
