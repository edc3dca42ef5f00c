import Mathlib.Data.Nat.Notation
import Mathlib.Data.List.Basic

/-!
# Specification: JSON texts (RFC 8259)

The grammar as inductive predicates.  A string literal carries the characters it denotes; escapes of lone surrogates, which
denote no character, are left out.
-/

namespace Verif
namespace JsonText

/-- white space -/
def isWs (c : Char) : Bool := c = ' ' || c = '\n' || c = '\r' || c = '\t'

/-- value of a hexadecimal digit -/
def hexVal (c : Char) : Option ℕ :=
  if '0' ≤ c ∧ c ≤ '9' then some (c.toNat - '0'.toNat)
  else if 'a' ≤ c ∧ c ≤ 'f' then some (c.toNat - 'a'.toNat + 10)
  else if 'A' ≤ c ∧ c ≤ 'F' then some (c.toNat - 'A'.toNat + 10)
  else none

/-- four hexadecimal digits with value `v` -/
def Hex4 (t : List Char) (v : ℕ) : Prop :=
  ∃ a b c d x y z w, t = [a, b, c, d] ∧ hexVal a = some x ∧ hexVal b = some y ∧ hexVal c = some z ∧ hexVal d = some w ∧
    v = 4096 * x + 256 * y + 16 * z + w

/-- `Str t s`: the text `t` between two quotation marks denotes the characters `s` -/
inductive Str : List Char → List Char → Prop
  | nil : Str [] []
  /-- an unescaped character: neither quotation mark nor backslash nor control character -/
  | plain {c t s} : c ≠ '"' → c ≠ '\\' → 0x20 ≤ c.toNat → Str t s → Str (c :: t) (c :: s)
  | short {e c t s} : (e, c) ∈ [('"', '"'), ('\\', '\\'), ('/', '/'), ('b', Char.ofNat 8), ('f', Char.ofNat 12), ('n', '\n'),
      ('r', '\r'), ('t', '\t')] → Str t s → Str ('\\' :: e :: t) (c :: s)
  | uni {h v t s} : Hex4 h v → v.isValidChar → Str t s → Str ('\\' :: 'u' :: (h ++ t)) (Char.ofNat v :: s)
  /-- a character outside the basic plane as a surrogate pair -/
  | pair {h l hi lo t s} : Hex4 h hi → Hex4 l lo → 0xD800 ≤ hi → hi < 0xDC00 → 0xDC00 ≤ lo → lo < 0xE000 → Str t s →
      Str ('\\' :: 'u' :: (h ++ '\\' :: 'u' :: (l ++ t))) (Char.ofNat (0x10000 + (hi - 0xD800) * 1024 + (lo - 0xDC00)) :: s)

/-- digits, at least one -/
def Digits (t : List Char) : Prop := t ≠ [] ∧ ∀ c ∈ t, '0' ≤ c ∧ c ≤ '9'

/-- numbers: sign, integer part, fraction, exponent -/
def Num (t : List Char) : Prop :=
  ∃ s i f e, t = s ++ i ++ f ++ e ∧ (s = [] ∨ s = ['-']) ∧ Digits i ∧ (i.head? = some '0' → i = ['0']) ∧
    (f = [] ∨ ∃ d, Digits d ∧ f = '.' :: d) ∧
    (e = [] ∨ ∃ x p d, (x = 'e' ∨ x = 'E') ∧ (p = [] ∨ p = ['+'] ∨ p = ['-']) ∧ Digits d ∧ e = x :: (p ++ d))

/-- white space only -/
def Ws (t : List Char) : Prop := ∀ c ∈ t, isWs c = true

mutual
/-- a value without white space around it -/
inductive Value : List Char → Prop
  | obj {t} : Members t → Value ('{' :: (t ++ ['}']))
  | obj0 {w} : Ws w → Value ('{' :: (w ++ ['}']))
  | arr {t} : Elements t → Value ('[' :: (t ++ [']']))
  | arr0 {w} : Ws w → Value ('[' :: (w ++ [']']))
  | str {t s} : Str t s → Value ('"' :: (t ++ ['"']))
  | num {t} : Num t → Value t
  | tru : Value ['t', 'r', 'u', 'e']
  | fls : Value ['f', 'a', 'l', 's', 'e']
  | nul : Value ['n', 'u', 'l', 'l']
/-- a value with white space around it -/
inductive Element : List Char → Prop
  | mk {w t w'} : Ws w → Value t → Ws w' → Element (w ++ t ++ w')
/-- elements separated by commas -/
inductive Elements : List Char → Prop
  | one {t} : Element t → Elements t
  | cons {t ts} : Element t → Elements ts → Elements (t ++ ',' :: ts)
/-- `"key": value` pairs separated by commas -/
inductive Members : List Char → Prop
  | one {w k s w' t} : Ws w → Str k s → Ws w' → Element t → Members (w ++ '"' :: (k ++ '"' :: (w' ++ ':' :: t)))
  | cons {w k s w' t ts} : Ws w → Str k s → Ws w' → Element t → Members ts →
      Members (w ++ '"' :: (k ++ '"' :: (w' ++ ':' :: (t ++ ',' :: ts))))
end

/-- a JSON text -/
def IsText (t : List Char) : Prop := Element t

/-- `t` is a JSON text consisting of an object with the one key `key`, whose value is the string `s` -/
def ObjectOfString (t key s : List Char) : Prop :=
  ∃ w1 w2 w3 w4 k v, t = '{' :: (w1 ++ '"' :: (k ++ '"' :: (w2 ++ ':' :: (w3 ++ '"' :: (v ++ '"' :: (w4 ++ ['}'])))))) ∧
    Ws w1 ∧ Ws w2 ∧ Ws w3 ∧ Ws w4 ∧ Str k key ∧ Str v s

end JsonText
end Verif
