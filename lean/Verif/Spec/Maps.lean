import Verif.Basic

/-!
Specification: the contents of `/proc/self/maps` as the Linux kernel writes them
(proc_pid_maps(5), `show_map_vma` in fs/proc/task_mmu.c).
-/

namespace Gdo.Spec
open Gdo

/-- A mapping. -/
structure Mapping where
  start : Nat
  stop : Nat
  /-- `rwxp` with `-` for missing rights and `s` for shared mappings -/
  perms : Char × Char × Char × Char
  offset : Nat
  major : Nat
  minor : Nat
  inode : Nat
  /-- empty: no file -/
  name : Str

/-- A digit. -/
def hexDigit (n : Nat) : Char := (str% "0123456789abcdef").getD n '0'

/-- The digits of a number in base `b`, the last one first. -/
def digitsRev (b : Nat) (n : Nat) : List Nat :=
  if h : b < 2 ∨ n < b then [n] else n % b :: digitsRev b (n / b)
termination_by n
decreasing_by
  have : n ≠ 0 := by omega
  exact Nat.div_lt_self (by omega) (by omega)

/-- A number in base 10 or 16 with at least `w` digits. -/
def number (b w n : Nat) : Str :=
  let ds := ((digitsRev b n).reverse.map hexDigit)
  List.replicate (w - ds.length) '0' ++ ds

/-- The fields in front of the name. -/
def Mapping.front (m : Mapping) : Str :=
  number 16 8 m.start ++ '-' :: number 16 8 m.stop ++ ' ' :: [m.perms.1, m.perms.2.1, m.perms.2.2.1, m.perms.2.2.2] ++
    ' ' :: number 16 8 m.offset ++ ' ' :: number 16 2 m.major ++ ':' :: number 16 2 m.minor ++ ' ' :: number 10 1 m.inode ++ [' ']

/-- The line: the name begins in column 74 or behind the fields. -/
def Mapping.line (m : Mapping) : Str :=
  if m.name = [] then m.front ++ ['\n'] else m.front ++ List.replicate (73 - m.front.length) ' ' ++ m.name ++ ['\n']

/-- The file. -/
def mapsText (ms : List Mapping) : Str := ms.flatMap Mapping.line

/-- What the kernel guarantees: addresses have 64 bits, the rights are written with the
    letters above, line breaks in names are written as `\012`, names begin with `/` or `[`
    or are otherwise visible. -/
structure Mapping.Ok (m : Mapping) : Prop where
  stop_lt : m.stop < 2 ^ 64
  start_lt : m.start < 2 ^ 64
  read : m.perms.1 = 'r' ∨ m.perms.1 = '-'
  write : m.perms.2.1 = 'w' ∨ m.perms.2.1 = '-'
  exec : m.perms.2.2.1 = 'x' ∨ m.perms.2.2.1 = '-'
  shared : m.perms.2.2.2 = 'p' ∨ m.perms.2.2.2 = 's'
  no_break : '\n' ∉ m.name
  visible : ∀ c, m.name.head? = some c → c ≠ ' ' ∧ c ≠ '\t' ∧ c ≠ '\x0b' ∧ c ≠ '\x0c' ∧ c ≠ '\r'

/-- The address lies in the mapping. -/
def Mapping.holds (m : Mapping) (addr : Nat) : Prop := m.start ≤ addr ∧ addr < m.stop

/-- A number whose hexadecimal text has decimal digits only. -/
def decimalHex (n : Nat) : Prop := ∀ d ∈ digitsRev 16 n, d < 10

instance (n : Nat) : Decidable (decimalHex n) := by unfold decimalHex; infer_instance

end Gdo.Spec
