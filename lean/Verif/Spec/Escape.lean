import Mathlib.Data.List.Forall2
/-
  How a text is written by `json.dump` (ensure_ascii) and by `repr`, character by character. Independent of the model.
-/
namespace PyFlowGo.Spec

/-- Lower-case hexadecimal digits of a number, most significant first. -/
def LowerHex (cs : List Char) (n : Nat) : Prop :=
  ∃ ds : List Nat, List.Forall₂ (fun c d => "0123456789abcdef".toList[d]? = some c) cs ds ∧
    n = ds.foldl (fun a d => 16 * a + d) 0

/-- `\uXXXX`, four digits. -/
def UEscape (n : Nat) (p : List Char) : Prop := ∃ cs, p = '\\' :: 'u' :: cs ∧ cs.length = 4 ∧ LowerHex cs n

/-- One character in a JSON text written with `ensure_ascii`. -/
inductive JsonPiece : Char → List Char → Prop
  | backslash : JsonPiece '\\' ['\\', '\\']
  | quote : JsonPiece '"' ['\\', '"']
  | backspace : JsonPiece '\x08' ['\\', 'b']
  | formFeed : JsonPiece '\x0c' ['\\', 'f']
  | lineFeed : JsonPiece '\n' ['\\', 'n']
  | return : JsonPiece '\r' ['\\', 'r']
  | tab : JsonPiece '\t' ['\\', 't']
  /-- printable ASCII stands for itself -/
  | plain (c : Char) (h1 : 32 ≤ c.toNat) (h2 : c.toNat ≤ 126) (hb : c ≠ '\\') (hq : c ≠ '"') : JsonPiece c [c]
  /-- any other character of the basic plane -/
  | code (c : Char) (h : c.toNat < 65536) (ho : c.toNat < 32 ∨ 126 < c.toNat)
      (hs : c ≠ '\x08' ∧ c ≠ '\x0c' ∧ c ≠ '\n' ∧ c ≠ '\r' ∧ c ≠ '\t') (p : List Char) (hp : UEscape c.toNat p) : JsonPiece c p
  /-- beyond: the two surrogates of UTF-16 -/
  | surrogates (c : Char) (high low : Nat) (hh : high < 1024) (hl : low < 1024) (hc : c.toNat = 65536 + 1024 * high + low)
      (p q : List Char) (hp : UEscape (55296 + high) p) (hq : UEscape (56320 + low) q) : JsonPiece c (p ++ q)

/-- One character in `repr` of a text between the given quotes; `pr` says which characters outside ASCII are printable. -/
inductive ReprPiece (pr : Char → Bool) (quote : Char) : Char → List Char → Prop
  | quote : ReprPiece pr quote quote ['\\', quote]
  | backslash : ReprPiece pr quote '\\' ['\\', '\\']
  | lineFeed : ReprPiece pr quote '\n' ['\\', 'n']
  | return : ReprPiece pr quote '\r' ['\\', 'r']
  | tab : ReprPiece pr quote '\t' ['\\', 't']
  | plain (c : Char) (h1 : 32 ≤ c.toNat) (h2 : c.toNat < 127) (hb : c ≠ '\\') (hq : c ≠ quote) : ReprPiece pr quote c [c]
  | printable (c : Char) (h : 127 < c.toNat) (hp : pr c = true) : ReprPiece pr quote c [c]
  | byte (c : Char) (h : c.toNat < 256) (ho : c.toNat < 32 ∨ c.toNat = 127 ∨ 127 < c.toNat ∧ pr c = false)
      (hs : c ≠ '\n' ∧ c ≠ '\r' ∧ c ≠ '\t') (cs : List Char) (hl : cs.length = 2) (hc : LowerHex cs c.toNat) :
      ReprPiece pr quote c ('\\' :: 'x' :: cs)
  | code (c : Char) (h1 : 256 ≤ c.toNat) (h2 : c.toNat < 65536) (hp : pr c = false) (p : List Char) (hc : UEscape c.toNat p) :
      ReprPiece pr quote c p
  | long (c : Char) (h1 : 65536 ≤ c.toNat) (hp : pr c = false) (cs : List Char) (hl : cs.length = 8) (hc : LowerHex cs c.toNat) :
      ReprPiece pr quote c ('\\' :: 'U' :: cs)

end PyFlowGo.Spec
