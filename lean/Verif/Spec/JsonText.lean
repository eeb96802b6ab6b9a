import Verif.Model.Json
import Mathlib.Data.Nat.Digits.Defs
/-
  The JSON grammar (RFC 8259), independent of any parser: which texts denote which values.
  `pf` is the meaning of real-number literals. Beyond the RFC, `NaN`, `Infinity` and `-Infinity` are numbers, as in Python.
-/
namespace PyFlowGo.Spec
variable {α : Type}

/-- White space. -/
def Ws (w : List Char) : Prop := ∀ c ∈ w, c = ' ' ∨ c = '\t' ∨ c = '\n' ∨ c = '\r'

/-- A decimal digit and its value. -/
def IsDigit (c : Char) : Prop := c ∈ ['0', '1', '2', '3', '4', '5', '6', '7', '8', '9']

/-- The integer part of a number: no superfluous leading zero. -/
inductive IntPart : List Char → Prop where
  | zero : IntPart ['0']
  | pos (c : Char) (t : List Char) (h0 : c ≠ '0') (hc : IsDigit c) (ht : ∀ d ∈ t, IsDigit d) : IntPart (c :: t)

/-- The number written by a digit string. -/
def decimal (t : List Char) : ℕ := Nat.ofDigits 10 (t.reverse.map fun c => c.toNat - 48)

/-- An integer literal and its value. -/
inductive IntText : List Char → ℤ → Prop where
  | pos (t : List Char) (h : IntPart t) : IntText t (decimal t)
  | neg (t : List Char) (h : IntPart t) : IntText ('-' :: t) (-(decimal t : ℤ))

/-- `.` and at least one digit. -/
def FracText (f : List Char) : Prop := ∃ c t, f = '.' :: c :: t ∧ IsDigit c ∧ ∀ d ∈ t, IsDigit d

/-- `e` or `E`, a sign or not, and at least one digit. -/
def ExpText (e : List Char) : Prop :=
  ∃ x s c t, e = x :: (s ++ c :: t) ∧ (x = 'e' ∨ x = 'E') ∧ (s = [] ∨ s = ['+'] ∨ s = ['-']) ∧ IsDigit c ∧ ∀ d ∈ t, IsDigit d

/-- A literal with a fraction or an exponent. -/
def RealText (t : List Char) : Prop :=
  ∃ i n f e, t = i ++ f ++ e ∧ IntText i n ∧ (f = [] ∨ FracText f) ∧ (e = [] ∨ ExpText e) ∧ (f ≠ [] ∨ e ≠ [])

/-- The three constants outside the RFC. -/
def FloatConstant (t : List Char) : Prop := t = "NaN".toList ∨ t = "Infinity".toList ∨ t = "-Infinity".toList

/-- A hexadecimal digit and its value. -/
def HexDigit (c : Char) (n : ℕ) : Prop :=
  (c, n) ∈ [('0', 0), ('1', 1), ('2', 2), ('3', 3), ('4', 4), ('5', 5), ('6', 6), ('7', 7), ('8', 8), ('9', 9),
    ('a', 10), ('b', 11), ('c', 12), ('d', 13), ('e', 14), ('f', 15),
    ('A', 10), ('B', 11), ('C', 12), ('D', 13), ('E', 14), ('F', 15)]

/-- `\uXXXX` and its code unit. -/
def UnitText (t : List Char) (n : ℕ) : Prop :=
  ∃ a b c d x y z w, t = ['\\', 'u', a, b, c, d] ∧ HexDigit a x ∧ HexDigit b y ∧ HexDigit c z ∧ HexDigit d w ∧
    n = x * 4096 + y * 256 + z * 16 + w

/-- The two-character escapes. -/
def ShortEscape (e c : Char) : Prop :=
  (e, c) ∈ [('"', '"'), ('\\', '\\'), ('/', '/'), ('b', '\x08'), ('f', '\x0c'), ('n', '\n'), ('r', '\r'), ('t', '\t')]

/-- One character of a string literal: unescaped (no quote, backslash or control character), a short escape, a code unit
    outside the surrogates, or a surrogate pair (UTF-16). -/
inductive CharText : List Char → Char → Prop where
  | plain (c : Char) (h1 : c ≠ '"') (h2 : c ≠ '\\') (h3 : 32 ≤ c.toNat) : CharText [c] c
  | short (e c : Char) (h : ShortEscape e c) : CharText ['\\', e] c
  | unit (t : List Char) (c : Char) (h : UnitText t c.toNat) : CharText t c
  | pair (t₁ t₂ : List Char) (hi lo : ℕ) (c : Char) (h₁ : UnitText t₁ (0xd800 + hi)) (h₂ : UnitText t₂ (0xdc00 + lo))
      (hhi : hi < 1024) (hlo : lo < 1024) (hc : c.toNat = 0x10000 + hi * 1024 + lo) : CharText (t₁ ++ t₂) c

/-- The inside of a string literal. -/
inductive Chars : List Char → List Char → Prop where
  | nil : Chars [] []
  | cons (t : List Char) (c : Char) (ts s : List Char) (h : CharText t c) (hs : Chars ts s) : Chars (t ++ ts) (c :: s)

/-- A string literal. -/
def StringText (t : List Char) (s : String) : Prop := ∃ b, t = '"' :: (b ++ ['"']) ∧ Chars b s.toList

/-- An object built from a list of members: the keys are distinct, they are the keys of the list in the order of their
    first occurrence, and every key has the value of its last occurrence. -/
def Members (ps d : List (String × Json α)) : Prop :=
  d.map Prod.fst = (ps.map Prod.fst).eraseDups ∧ ∀ k, lookup d k = lookup ps.reverse k

mutual
/-- The texts of a value (without surrounding white space). -/
inductive ValueText (pf : List Char → Option α) : List Char → Json α → Prop where
  | null : ValueText pf "null".toList .null
  | true : ValueText pf "true".toList (.bool true)
  | false : ValueText pf "false".toList (.bool false)
  | int (t : List Char) (n : ℤ) (h : IntText t n) : ValueText pf t (.int n)
  | num (t : List Char) (x : α) (h : RealText t ∨ FloatConstant t) (hx : pf t = some x) : ValueText pf t (.num x)
  | str (t : List Char) (s : String) (h : StringText t s) : ValueText pf t (.str s)
  | emptyArr (w : List Char) (h : Ws w) : ValueText pf ('[' :: (w ++ [']'])) (.arr [])
  | arr (t : List Char) (l : List (Json α)) (h : ElementsText pf t l) : ValueText pf ('[' :: (t ++ [']'])) (.arr l)
  | emptyObj (w : List Char) (h : Ws w) : ValueText pf ('{' :: (w ++ ['}'])) (.obj [])
  | obj (t : List Char) (ps d : List (String × Json α)) (h : MembersText pf t ps) (hd : Members ps d) :
      ValueText pf ('{' :: (t ++ ['}'])) (.obj d)
/-- One or more values separated by commas, with white space around each. -/
inductive ElementsText (pf : List Char → Option α) : List Char → List (Json α) → Prop where
  | one (w₁ t w₂ : List Char) (v : Json α) (h₁ : Ws w₁) (h : ValueText pf t v) (h₂ : Ws w₂) :
      ElementsText pf (w₁ ++ t ++ w₂) [v]
  | cons (w₁ t w₂ ts : List Char) (v : Json α) (vs : List (Json α)) (h₁ : Ws w₁) (h : ValueText pf t v) (h₂ : Ws w₂)
      (hs : ElementsText pf ts vs) : ElementsText pf (w₁ ++ t ++ w₂ ++ ',' :: ts) (v :: vs)
/-- One or more members separated by commas. -/
inductive MembersText (pf : List Char → Option α) : List Char → List (String × Json α) → Prop where
  | one (w₁ kt w₂ w₃ t w₄ : List Char) (k : String) (v : Json α) (h₁ : Ws w₁) (hk : StringText kt k) (h₂ : Ws w₂)
      (h₃ : Ws w₃) (h : ValueText pf t v) (h₄ : Ws w₄) :
      MembersText pf (w₁ ++ kt ++ w₂ ++ ':' :: (w₃ ++ t ++ w₄)) [(k, v)]
  | cons (w₁ kt w₂ w₃ t w₄ ts : List Char) (k : String) (v : Json α) (ps : List (String × Json α)) (h₁ : Ws w₁)
      (hk : StringText kt k) (h₂ : Ws w₂) (h₃ : Ws w₃) (h : ValueText pf t v) (h₄ : Ws w₄) (hs : MembersText pf ts ps) :
      MembersText pf (w₁ ++ kt ++ w₂ ++ ':' :: (w₃ ++ t ++ w₄ ++ ',' :: ts)) ((k, v) :: ps)
end

/-- The texts of a value, with white space around. -/
def JsonText (pf : List Char → Option α) (text : List Char) (j : Json α) : Prop :=
  ∃ w₁ t w₂, text = w₁ ++ t ++ w₂ ∧ Ws w₁ ∧ ValueText pf t j ∧ Ws w₂

mutual
/-- All keys of every object within the value are distinct: what a Python `dict` can hold. -/
def DistinctKeys : Json α → Prop
  | .obj l => (l.map Prod.fst).Nodup ∧ DistinctMembers l
  | .arr l => DistinctElements l
  | _ => True
/-- … of every element. -/
def DistinctElements : List (Json α) → Prop
  | [] => True
  | v :: vs => DistinctKeys v ∧ DistinctElements vs
/-- … of every member. -/
def DistinctMembers : List (String × Json α) → Prop
  | [] => True
  | (_, v) :: ps => DistinctKeys v ∧ DistinctMembers ps
end

mutual
/-- Every real number within the value satisfies `P`. -/
def NumsAll (P : α → Prop) : Json α → Prop
  | .num x => P x
  | .obj l => NumsMembers P l
  | .arr l => NumsElements P l
  | _ => True
/-- … of every element. -/
def NumsElements (P : α → Prop) : List (Json α) → Prop
  | [] => True
  | v :: vs => NumsAll P v ∧ NumsElements P vs
/-- … of every member. -/
def NumsMembers (P : α → Prop) : List (String × Json α) → Prop
  | [] => True
  | (_, v) :: ps => NumsAll P v ∧ NumsMembers P ps
end

/-- A number format that can be read back: the text of the number is a real literal of JSON that `float` reads as the same
    number. -/
def Readable (pf : List Char → Option α) (sn : α → List Char) (x : α) : Prop :=
  (RealText (sn x) ∨ FloatConstant (sn x)) ∧ pf (sn x) = some x

/-- Printable ASCII or a line feed. -/
def Ascii (c : Char) : Prop := c = '\n' ∨ (32 ≤ c.toNat ∧ c.toNat ≤ 126)

end PyFlowGo.Spec
