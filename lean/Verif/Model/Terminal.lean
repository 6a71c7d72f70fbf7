import Verif.Model.Args
/-
The size of the terminal and single key presses: `shutil.get_terminal_size` as used by
kolombos/common.py, and pytermor/common.py.
-/
namespace Kolombos

/-- What the width of the terminal depends on at one moment: the environment variables and the
terminal of the standard output (`none`: it is not a terminal). -/
structure Surroundings where
  varColumns : Option Str
  varLines : Option Str
  stdout : Option (Nat × Nat)

/-- `int(os.environ[...])`, or 0 on `KeyError` and `ValueError`; `toInt` is python's `int` for strings. -/
def envInt (toInt : Str → Option Int) (v : Option Str) : Int := ((v.bind toInt).getD 0)

/-- `shutil.get_terminal_size()` (python's shutil.py).  `zeroIsUnknown` for versions of python that
replace a size of 0 (`size.columns or fallback[0]`); earlier versions do not. -/
def getTerminalSize (toInt : Str → Option Int) (zeroIsUnknown : Bool) (e : Surroundings) : Int × Int :=
  let columns := envInt toInt e.varColumns
  let lines := envInt toInt e.varLines
  if columns ≤ 0 ∨ lines ≤ 0 then
    let size := e.stdout.getD (80, 24)
    (if columns ≤ 0 then (if zeroIsUnknown ∧ size.1 = 0 then 80 else size.1) else columns,
     if lines ≤ 0 then (if zeroIsUnknown ∧ size.2 = 0 then 24 else size.2) else lines)
  else (columns, lines)

/-- The program in surroundings that may change while it runs: `around k` are those of the `k`-th
chunk (/repo/kolombos/common.py:12-20, /repo/kolombos/byteio/formatter/binary.py:92-93). -/
def World.inside (w : World) (toInt : Str → Option Int) (zeroIsUnknown : Bool) (around : Nat → Surroundings) : World :=
  { w with term := fun k => (getTerminalSize toInt zeroIsUnknown (around k)).1 }

/-- What `termios.tcgetattr` returns: the four sets of flags, the speeds, the control characters. -/
structure TermAttrs where
  iflag : BitVec 32
  oflag : BitVec 32
  cflag : BitVec 32
  lflag : BitVec 32
  ispeed : Nat
  ospeed : Nat
  cc : List Bytes
  deriving DecidableEq

/-- `termios.ICANON` (linux). -/
def icanon : BitVec 32 := 2#32
/-- `termios.ECHO` (linux). -/
def echo : BitVec 32 := 8#32

/-- `newattr[3] = newattr[3] & ~termios.ICANON & ~termios.ECHO` (/repo/pytermor/common.py:59). -/
def TermAttrs.single (a : TermAttrs) : TermAttrs := { a with lflag := a.lflag &&& ~~~icanon &&& ~~~echo }

/-- The standard input: the attributes of the terminal (`none`: not a terminal), the characters typed
that nobody has read, and those that `sys.stdin` has read in advance. -/
structure Keyboard where
  attrs : Option TermAttrs
  typed : Str := []
  ahead : Str := []
  deriving DecidableEq

/-- What happens during one call: how the terminal answers the two calls of `tcsetattr` (an exception
or none), what is typed while the program waits or with which exception the read ends, and the
attributes at the end (other programs may change them). -/
structure Waiting where
  set : Option Err := none
  keys : Except Err Str
  changed : Option TermAttrs := none
  reset : Option Err := none

/-- How a call ends: the keyboard, the result or exception, and the attributes in force while the program
waits. -/
structure KeyOutcome where
  kb : Keyboard
  res : Except Err (Option Str)
  during : Option TermAttrs

/-- `sys.stdin.read(1)` on a terminal that is not in canonical mode: `TextIOWrapper` returns a character it
already has; otherwise it reads what is there and keeps the rest.  Nothing there is the end of the
input. -/
def Keyboard.read1 (k : Keyboard) (keys : Str) : Keyboard × Str :=
  match k.ahead with
  | c :: r => ({ k with typed := k.typed ++ keys, ahead := r }, [c])
  | [] =>
    match k.typed ++ keys with
    | [] => (k, [])
    | c :: r => ({ k with typed := [], ahead := r }, [c])

/-- `wait_key` (/repo/pytermor/common.py:46-69), not on Windows.  `termios.error` is an `osError` here;
raised by `tcgetattr` or `tcsetattr` it is not caught.  `TCSAFLUSH` discards what is typed and not read. -/
def waitKey (k : Keyboard) (w : Waiting) : KeyOutcome :=
  match k.attrs with
  | none => ⟨k, .error .osError, none⟩
  | some old =>
    match w.set with
    | some e => ⟨k, .error e, none⟩
    | none =>
      let k1 := { k with attrs := some old.single }
      let r : Keyboard × Except Err (Option Str) := match w.keys with
        | .ok keys => let q := k1.read1 keys; (q.1, .ok (some q.2))
        | .error .osError => (k1, .ok none)
        | .error e => (k1, .error e)
      match w.reset with
      | some e => ⟨{ r.1 with attrs := some (w.changed.getD old.single) }, .error e, some old.single⟩
      | none => ⟨{ r.1 with attrs := some old, typed := [] }, r.2, some old.single⟩

/-- Several calls; the first exception ends them. -/
def waitKeys : Keyboard → List Waiting → Keyboard × List (Except Err (Option Str))
  | k, [] => (k, [])
  | k, w :: ws =>
    let o := waitKey k w
    match o.res with
    | .error e => (o.kb, [.error e])
    | .ok r => let q := waitKeys o.kb ws; (q.1, .ok r :: q.2)

end Kolombos
