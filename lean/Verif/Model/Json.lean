import Verif.Model.Text
/-!
# JSON text (encoding/json)

Not in /repo; modelled because the properties of archives and of the event socket are about the text. A document is parsed into a tree whose strings
and numbers are kept as written; decoding into Go values works on the tree (`Model.Archive`, `Model.EventClient`). Simplifications: the nesting limit of
10000 is left out; errors are not distinguished.
-/

namespace TcpInfo

/-- A JSON value. `num` and `str` hold the text as written (`str` without the quotes), and so do the keys of `obj`. -/
inductive J where
  | null
  | bool (b : Bool)
  | num (lit : Bytes)
  | str (raw : Bytes)
  | arr (l : List J)
  | obj (l : List (Bytes × J))

/-- The bytes of an ASCII string. -/
def asc (s : String) : Bytes := s.toList.map Char.toUInt8

/-! ## Writing -/

mutual
/-- The compact text of a value, as `json.Marshal` writes it. -/
def J.enc : J → Bytes
  | .null => asc "null"
  | .bool b => if b then asc "true" else asc "false"
  | .num lit => lit
  | .str raw => 34 :: (raw ++ [34])
  | .arr l => 91 :: (J.encElems l ++ [93])
  | .obj l => 123 :: (J.encMembers l ++ [125])
/-- Elements, separated by commas. -/
def J.encElems : List J → Bytes
  | [] => []
  | j :: js => J.enc j ++ (match js with | [] => [] | _ :: _ => 44 :: J.encElems js)
/-- Members, separated by commas. -/
def J.encMembers : List (Bytes × J) → Bytes
  | [] => []
  | (k, j) :: js => 34 :: (k ++ 34 :: 58 :: (J.enc j ++ (match js with | [] => [] | _ :: _ => 44 :: J.encMembers js)))
end

/-- Lower case hexadecimal digit. -/
def hexDigit (n : Nat) : UInt8 := if n % 16 < 10 then byte (48 + n % 16) else byte (87 + n % 16)

/-- `\uXXXX`. -/
def escU (n : Nat) : Bytes := [92, 117, hexDigit (n / 4096), hexDigit (n / 256), hexDigit (n / 16), hexDigit n]

/-- encoding/json `appendString` with HTML escaping, one character. (Since Go 1.22 backspace and form feed have the short forms `\b`, `\f`.) -/
def escChar (c : Char) : Bytes :=
  if c = '"' then [92, 34]
  else if c = '\\' then [92, 92]
  else if c = '\n' then [92, 110]
  else if c = '\r' then [92, 114]
  else if c = '\t' then [92, 116]
  else if c.toNat < 32 ∨ c = '<' ∨ c = '>' ∨ c = '&' ∨ c.toNat = 0x2028 ∨ c.toNat = 0x2029 then escU c.toNat
  else utf8Enc c.toNat

/-- The text of a string between the quotes. -/
def quote (s : List Char) : Bytes := s.flatMap escChar

/-- `strconv.AppendInt`. -/
def intLit (i : Int) : Bytes :=
  (if i < 0 then [45] else []) ++ (Nat.toDigits 10 i.natAbs).map Char.toUInt8

/-! ## Parsing -/

/-- encoding/json `isSpace`. -/
def isWs (b : UInt8) : Bool := b == 32 || b == 9 || b == 10 || b == 13

/-- The next byte that is not white space, and what follows. -/
def next : Bytes → Option (UInt8 × Bytes)
  | [] => none
  | c :: r => if isWs c then next r else some (c, r)

/-- Hexadecimal digit. -/
def hexVal (b : UInt8) : Option Nat :=
  let n := b.toNat
  if 48 ≤ n ∧ n < 58 then some (n - 48) else if 97 ≤ n ∧ n < 103 then some (n - 87) else if 65 ≤ n ∧ n < 71 then some (n - 55) else none

/-- Is it allowed after a backslash (other than `u`)? -/
def isEsc (b : UInt8) : Bool := b == 34 || b == 92 || b == 47 || b == 98 || b == 102 || b == 110 || b == 114 || b == 116

/-- A string after its opening quote: the text up to the closing quote, and what follows (encoding/json/scanner.go `stateInString` and its escapes). -/
def pStr : Bytes → Option (Bytes × Bytes)
  | [] => none
  | c :: r =>
    if c = 34 then some ([], r)
    else if c = 92 then
      match r with
      | [] => none
      | e :: r =>
        if e = 117 then
          match r with
          | h1 :: h2 :: h3 :: h4 :: r =>
            if (hexVal h1).isSome && (hexVal h2).isSome && (hexVal h3).isSome && (hexVal h4).isSome then
              (pStr r).map (fun p => (c :: e :: h1 :: h2 :: h3 :: h4 :: p.1, p.2))
            else none
          | _ => none
        else if isEsc e then (pStr r).map (fun p => (c :: e :: p.1, p.2)) else none
    else if c.toNat < 32 then none
    else (pStr r).map (fun p => (c :: p.1, p.2))

/-- Integer part of a number. -/
def pInt (b : Bytes) : Option (Bytes × Bytes) :=
  match b with
  | [] => none
  | d :: r => if d = 48 then some ([48], r) else if (digitOf d).isSome then some (spanDigits (d :: r)) else none

/-- Optional fraction. -/
def pFrac (b : Bytes) : Option (Bytes × Bytes) :=
  match b with
  | [] => some ([], [])
  | p :: r => if p = 46 then (if (spanDigits r).1 = [] then none else some (p :: (spanDigits r).1, (spanDigits r).2)) else some ([], b)

/-- Optional sign in an exponent. -/
def pSign (b : Bytes) : Bytes × Bytes :=
  match b with
  | [] => ([], [])
  | s :: r => if s = 43 ∨ s = 45 then ([s], r) else ([], b)

/-- Optional exponent. -/
def pExp (b : Bytes) : Option (Bytes × Bytes) :=
  match b with
  | [] => some ([], [])
  | e :: r =>
    if e = 101 ∨ e = 69 then
      (if (spanDigits (pSign r).2).1 = [] then none else some (e :: ((pSign r).1 ++ (spanDigits (pSign r).2).1), (spanDigits (pSign r).2).2))
    else some ([], b)

/-- Optional minus sign. -/
def pMinus (b : Bytes) : Bytes × Bytes :=
  match b with
  | [] => ([], [])
  | s :: r => if s = 45 then ([s], r) else ([], b)

/-- A number (encoding/json/scanner.go `stateNeg`, `state0`, `state1`, `stateDot`, `stateE`, ...). -/
def pNum (b : Bytes) : Option (Bytes × Bytes) :=
  (pInt (pMinus b).2).bind (fun i => (pFrac i.2).bind (fun f => (pExp f.2).map (fun e => ((pMinus b).1 ++ i.1 ++ f.1 ++ e.1, e.2))))

/-- The rest of `true`, `false`, `null`. -/
def pLit (w : Bytes) (j : J) (r : Bytes) : Option (J × Bytes) := if r.take w.length = w then some (j, r.drop w.length) else none

mutual
/-- A value; `fuel` bounds the recursion (`none` if exceeded, which does not happen when it is at least the length of the text). -/
def pValue : (fuel : Nat) → Bytes → Option (J × Bytes)
  | 0, _ => none
  | f + 1, b =>
    (next b).bind (fun (c, r) =>
      if c = 123 then
        (next r).bind (fun (d, r') => if d = 125 then some (.obj [], r') else (pMembers f r).map (fun p => (.obj p.1, p.2)))
      else if c = 91 then
        (next r).bind (fun (d, r') => if d = 93 then some (.arr [], r') else (pElems f r).map (fun p => (.arr p.1, p.2)))
      else if c = 34 then (pStr r).map (fun p => (.str p.1, p.2))
      else if c = 116 then pLit (asc "rue") (.bool true) r
      else if c = 102 then pLit (asc "alse") (.bool false) r
      else if c = 110 then pLit (asc "ull") .null r
      else (pNum (c :: r)).map (fun p => (.num p.1, p.2)))
/-- Elements up to the closing bracket. -/
def pElems : (fuel : Nat) → Bytes → Option (List J × Bytes)
  | 0, _ => none
  | f + 1, b =>
    (pValue f b).bind (fun (v, r) =>
      (next r).bind (fun (c, r) =>
        if c = 44 then (pElems f r).map (fun p => (v :: p.1, p.2))
        else if c = 93 then some ([v], r) else none))
/-- Members up to the closing brace. -/
def pMembers : (fuel : Nat) → Bytes → Option (List (Bytes × J) × Bytes)
  | 0, _ => none
  | f + 1, b =>
    (next b).bind (fun (q, r) =>
      if q = 34 then
        (pStr r).bind (fun (k, r) =>
          (next r).bind (fun (c, r) =>
            if c = 58 then
              (pValue f r).bind (fun (v, r) =>
                (next r).bind (fun (d, r) =>
                  if d = 44 then (pMembers f r).map (fun p => ((k, v) :: p.1, p.2))
                  else if d = 125 then some ([(k, v)], r) else none))
            else none))
      else none)
end

/-- A document: one value and nothing but white space after it (encoding/json `checkValid`). -/
def parseJson (b : Bytes) : Option J :=
  match pValue (b.length + 1) b with
  | some (j, r) => if next r = none then some j else none
  | none => none

/-! ## Strings -/

/-- Four hexadecimal digits. -/
def hex4 (a b c d : UInt8) : Nat :=
  (hexVal a).getD 0 * 4096 + (hexVal b).getD 0 * 256 + (hexVal c).getD 0 * 16 + (hexVal d).getD 0

/-- What an escape other than `\u` stands for. -/
def escVal (e : UInt8) : Char :=
  if e = 98 then Char.ofNat 8 else if e = 102 then Char.ofNat 12 else if e = 110 then '\n' else if e = 114 then '\r' else if e = 116 then '\t'
  else Char.ofNat e.toNat

/-- `utf16.IsSurrogate`. -/
def isSurr (n : Nat) : Bool := 0xD800 ≤ n && n < 0xE000

/-- encoding/json `unquote` of the text between the quotes: surrogate pairs are combined, lone surrogates and invalid UTF-8 give U+FFFD. Every step
consumes a byte, so `fuel` = length is enough. -/
def unquoteLoop : (fuel : Nat) → Bytes → List Char
  | 0, _ => []
  | _, [] => []
  | f + 1, b :: r =>
    if b = 92 then
      match r with
      | [] => []
      | e :: r =>
        if e = 117 then
          match r with
          | h1 :: h2 :: h3 :: h4 :: r =>
            let n := hex4 h1 h2 h3 h4
            if isSurr n then
              match r with
              | 92 :: 117 :: g1 :: g2 :: g3 :: g4 :: r' =>
                let m := hex4 g1 g2 g3 g4
                if n < 0xDC00 ∧ 0xDC00 ≤ m ∧ m < 0xE000 then Char.ofNat ((n - 0xD800) * 1024 + (m - 0xDC00) + 0x10000) :: unquoteLoop f r'
                else runeError :: unquoteLoop f r
              | _ => runeError :: unquoteLoop f r
            else Char.ofNat n :: unquoteLoop f r
          | _ => []
        else escVal e :: unquoteLoop f r
    else (decodeRune b r).1 :: unquoteLoop f (decodeRune b r).2

/-- The characters of a JSON string. -/
def unquote (raw : Bytes) : List Char := unquoteLoop raw.length raw

/-- The bytes of a JSON string. -/
def unquoteBytes (raw : Bytes) : Bytes := (unquote raw).flatMap (fun c => utf8Enc c.toNat)

/-! ## Struct fields -/

/-- encoding/json `foldRunes`: case folding as far as names of ASCII letters are concerned (U+017F folds to s, U+212A to k). -/
def foldChar (c : Char) : Char :=
  if c.toNat = 0x17F then 's' else if c.toNat = 0x212A then 'k' else if 65 ≤ c.toNat ∧ c.toNat ≤ 90 then Char.ofNat (c.toNat + 32) else c

/-- encoding/json `object`: the struct field of a key: an exact match, or else a match up to case. -/
def lookupField {α : Type} (tbl : List (List Char × α)) (key : List Char) : Option α :=
  match tbl.find? (fun p => p.1 == key) with
  | some p => some p.2
  | none => (tbl.find? (fun p => p.1.map foldChar == key.map foldChar)).map (·.2)

/-- Decoding an object into a struct: the members in order; `none`: some member cannot be stored (`UnmarshalTypeError` and the like). -/
def foldMembers {α : Type} (f : α → Bytes × J → Option α) : List (Bytes × J) → α → Option α
  | [], a => some a
  | m :: ms, a => (f a m).bind (foldMembers f ms)

/-- encoding/json `literalStore` into an integer type with values `lo` to `hi` (`strconv.ParseInt`, or `ParseUint` if `lo = 0`, which does not accept a
sign): null leaves it as it is. -/
def storeInt (lo hi : Int) (cur : Int) (j : J) : Option Int :=
  match j with
  | .null => some cur
  | .num lit =>
    let neg := lit.head? == some 45
    let ds := if neg then lit.drop 1 else lit
    if !(neg && lo == 0) && ds.all (fun d => (digitOf d).isSome) then
      let n : Int := (ds.foldl (fun n d => n * 10 + (digitOf d).getD 0) 0 : Nat)
      let v := if neg then -n else n
      if lo ≤ v ∧ v ≤ hi then some v else none
    else none
  | _ => none

/-- encoding/json `literalStore` into a string. -/
def storeString (cur : String) (j : J) : Option String :=
  match j with
  | .null => some cur
  | .str raw => some (String.ofList (unquote raw))
  | _ => none

/-- `time.Time.UnmarshalJSON`: the text is not unquoted. -/
def storeTime (cur : Int) (j : J) : Option Int :=
  match j with
  | .null => some cur
  | .str raw => parseTime raw
  | _ => none

end TcpInfo
