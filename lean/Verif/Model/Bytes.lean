/-!
# Byte strings and the Go standard-library functions the code calls

Go `string` and `[]byte` values are modelled as `List UInt8`. The functions in this file model the
documented behaviour of Go standard-library functions used by the repository (they are *not* repository
code and are part of the trusted base): `strings.Split`, `strings.HasPrefix`, `bytes.IndexByte`,
`bytes.HasSuffix`, `strings.Replacer`, `strconv.ParseUint`, `strconv.FormatUint`/`Itoa`/`%d`.
-/
namespace Stomp

/-- Go strings / byte slices. Simplification: a nil slice and an empty slice are not distinguished
(the code never distinguishes them observably: `writer.go:80` tests `len`). -/
abbrev Bytes := List UInt8

open Lean in
/-- `b!"text"` is the list of UTF-8 bytes of a literal. -/
macro:max "b!" s:str : term => do
  let bs := s.getString.toUTF8.toList
  let elems ← bs.toArray.mapM fun b => `(($(quote b.toNat) : UInt8))
  `(([ $elems,* ] : List UInt8))

/-- `strings.NewReplacer(old1, new1, ...)` followed by `Replace`/`WriteString`: scan left to right; at
each position the first pair (in argument order) whose `old` is a prefix of the remaining text is
applied and the scan continues after `old`; otherwise the byte is copied. The `Nat` argument counts
bytes of a matched `old` still to be skipped. -/
def replacer (tbl : List (Bytes × Bytes)) : Nat → Bytes → Bytes
  | _, [] => []
  | k + 1, _ :: bs => replacer tbl k bs
  | 0, b :: bs =>
    match tbl.find? (fun p => p.1.isPrefixOf (b :: bs)) with
    | some p => p.2 ++ replacer tbl (p.1.length - 1) bs
    | none => b :: replacer tbl 0 bs

/-- `strings.Split(s, sep)` for a one-byte separator: the pieces between separators (always at least
one piece). -/
def splitOn (sep : UInt8) : Bytes → List Bytes
  | [] => [[]]
  | b :: bs =>
    if b = sep then [] :: splitOn sep bs
    else match splitOn sep bs with
      | [] => [[b]]           -- not reachable: `splitOn` is never empty
      | p :: ps => (b :: p) :: ps

/-- `strings.Join(parts, sep)` for a one-byte separator. -/
def joinWith (sep : UInt8) : List Bytes → Bytes
  | [] => []
  | [p] => p
  | p :: q :: ps => p ++ sep :: joinWith sep (q :: ps)

/-- `bytes.IndexByte(s, c)`; `none` stands for -1. -/
def indexByte (c : UInt8) : Bytes → Option Nat
  | [] => none
  | b :: bs => if b = c then some 0 else (indexByte c bs).map (· + 1)

/-- ASCII digit test, `'0' <= c && c <= '9'`. -/
def isDigit (c : UInt8) : Bool := 48 ≤ c && c ≤ 57

/-- Value of a byte as a digit (`c - '0'`). -/
def digitVal (c : UInt8) : Nat := c.toNat - 48

/-- Value of a digit string, most significant first. -/
def digitsVal (s : Bytes) : Nat := s.foldl (fun n c => 10 * n + digitVal c) 0

/-- `strconv.ParseUint(s, 10, bits)`: `none` is a non-nil error (`ErrSyntax` or `ErrRange`). Go's
loop detects overflow digit by digit; the outcome (error or value) is the one given here. -/
def parseUint (bits : Nat) (s : Bytes) : Option Nat :=
  if s ≠ [] ∧ s.all isDigit ∧ digitsVal s < 2 ^ bits then some (digitsVal s) else none

/-- Worker for `fmtUint`; `fuel` bounds the number of digits. -/
def fmtAux : Nat → Nat → Bytes
  | 0, _ => []
  | fuel + 1, n =>
    if n < 10 then [UInt8.ofNat (48 + n)]
    else fmtAux fuel (n / 10) ++ [UInt8.ofNat (48 + n % 10)]

/-- `strconv.FormatUint(n, 10)`, `strconv.Itoa(n)` and `fmt.Sprintf("%d", n)` for `n ≥ 0`. -/
def fmtUint (n : Nat) : Bytes := fmtAux (n + 1) n

/-- `fmt.Sprintf("%d", i)` for a signed integer. -/
def fmtInt : Int → Bytes
  | .ofNat n => fmtUint n
  | .negSucc n => 45 :: fmtUint (n + 1)

end Stomp
