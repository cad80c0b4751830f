import Verif.Model.Disk

/-!
# The extraction scripts (/repo/scripts/meds-extract-range, /repo/scripts/meds-extract-catalog)

A run starts from a disk and the arguments and ends with an exit status and a disk.  An exception that is not caught is exit status 1.
-/

namespace Meds.Scripts

open Extract Disk

/-- The outcome of `parser.parse_args`: it leaves the program, or returns the arguments that are not options. -/
inductive Parsed
  | stop (status : Nat)
  | args (l : List String)
  deriving DecidableEq

/-- `OptionParser.parse_args` of a parser whose only option is `-h`, `--help` (/repo/scripts/meds-extract-range:15-18,
/repo/scripts/meds-extract-catalog:16-19): options may stand anywhere before `--`, may be abbreviated, help leaves with status 0, an unknown option and a
value for `--help` with status 2. -/
def parseArgs : List String → List String → Parsed
  | [], acc => .args acc.reverse
  | a :: rest, acc =>
    match a.toList with
    | ['-', '-'] => .args (acc.reverse ++ rest)
    | '-' :: '-' :: name => if '=' ∈ name then .stop 2 else if name <+: "help".toList then .stop 0 else .stop 2
    | '-' :: c :: _ => if c = 'h' then .stop 0 else .stop 2
    | _ => parseArgs rest (a :: acc)

/-- White space for `int`. -/
def isBlank (c : Char) : Bool := c = ' ' || c = '\t' || c = '\n' || c = '\r' || c.toNat = 11 || c.toNat = 12

/-- The digits of a number, with single underscores between digits; `p` says that a digit came before, `acc` is the value so far. -/
def digitsVal : List Char → Bool → Nat → Option Nat
  | [], p, acc => if p then some acc else none
  | c :: cs, p, acc =>
    if c = '_' then (if p then digitsVal cs false acc else none)
    else if c.isDigit then digitsVal cs true (acc * 10 + (c.toNat - '0'.toNat))
    else none

/-- Python's `int(s)` (/repo/scripts/meds-extract-range:25-26); `none` is ValueError.  Simplification: only ASCII digits and blanks. -/
def pyInt (s : String) : Option Int :=
  let t := ((s.toList.dropWhile isBlank).reverse.dropWhile isBlank).reverse
  match t with
  | '-' :: ds => (digitsVal ds false 0).map (fun n : Nat => -(n : Int))
  | '+' :: ds => (digitsVal ds false 0).map (fun n : Nat => (n : Int))
  | ds => (digitsVal ds false 0).map (fun n : Nat => (n : Int))

variable (nm : String → String)

/-- `extract_range`, `extract_catalog` to the end of the program (/repo/meds/extractor.py:16-38): the object is built, and destroyed when the function returns. -/
def runExtract (d : Disk) (r : Request) : Nat × Disk :=
  ((match (construct nm d r).2 with | none => 0 | some _ => 1), close nm (afterConstruct nm d r) r)

/-- `main` of /repo/scripts/meds-extract-range:17-29. -/
def rangeMain (d : Disk) (argv : List String) : Nat × Disk :=
  match parseArgs argv [] with
  | .stop n => (n, d)
  | .args (f :: a :: b :: o :: _) =>
    match pyInt a with
    | none => (1, d)
    | some x =>
      match pyInt b with
      | none => (1, d)
      | some y => runExtract nm d ⟨f, o, false, .range x y false⟩
  | .args _ => (1, d)

/-- `main` of /repo/scripts/meds-extract-catalog:18-28. -/
def catalogMain (d : Disk) (argv : List String) : Nat × Disk :=
  match parseArgs argv [] with
  | .stop n => (n, d)
  | .args (f :: o :: _) => runExtract nm d ⟨f, o, false, .catalog⟩
  | .args _ => (1, d)

end Meds.Scripts
