import Verif.Model.Path

/-!
# Model: metadata files (`losa/loadersaver.py`)

Numbers are values of a type `F` (Python's floats and integers) with a printing function `str`/`repr` and a parsing function; that
these are inverse to each other is an assumption of the theorems, not of the model. JSON values are numbers and arrays; strings,
nested objects, `true`, `false` and `null` as values are not modelled.
-/

namespace Discorpy

/-- The characters at which `str.splitlines` ends a line. -/
def isLineBreak (c : Char) : Bool :=
  [0x0a, 0x0b, 0x0c, 0x0d, 0x1c, 0x1d, 0x1e, 0x85, 0x2028, 0x2029].contains c.toNat

/-- The white space of `str.split`. -/
def isPySpace (c : Char) : Bool :=
  [0x09, 0x0a, 0x0b, 0x0c, 0x0d, 0x1c, 0x1d, 0x1e, 0x1f, 0x20, 0x85, 0xa0, 0x1680, 0x2000, 0x2001, 0x2002, 0x2003, 0x2004, 0x2005,
    0x2006, 0x2007, 0x2008, 0x2009, 0x200a, 0x2028, 0x2029, 0x202f, 0x205f, 0x3000].contains c.toNat

/-- `str.splitlines`, with the beginning of the current line. Reading in text mode turns `\r\n` and `\r` into `\n`, which makes no
difference to the lines. -/
def splitLinesAux : PyStr → PyStr → List PyStr
  | cur, [] => if cur = [] then [] else [cur]
  | cur, '\r' :: '\n' :: r => cur :: splitLinesAux [] r
  | cur, c :: r => if isLineBreak c then cur :: splitLinesAux [] r else splitLinesAux (cur ++ [c]) r

/-- `str.splitlines` (loadersaver.py, line 769). -/
def splitLines (s : PyStr) : List PyStr := splitLinesAux [] s

/-- `str.split()`, with the beginning of the current word. -/
def splitWordsAux : PyStr → PyStr → List PyStr
  | cur, [] => if cur = [] then [] else [cur]
  | cur, c :: r =>
    if isPySpace c then (if cur = [] then splitWordsAux [] r else cur :: splitWordsAux [] r) else splitWordsAux (cur ++ [c]) r

/-- `str.split()` (loadersaver.py, line 772). -/
def splitWords (s : PyStr) : List PyStr := splitWordsAux [] s

/-- `d[key] = value` for an ordered dictionary. -/
def dictSet {β : Type} : List (PyStr × β) → PyStr → β → List (PyStr × β)
  | [], k, v => [(k, v)]
  | (k', v') :: r, k, v => if k' = k then (k', v) :: r else (k', v') :: dictSet r k v

/-- The dictionary of `save_metadata_txt` (loadersaver.py, lines 741-746). -/
def metadataDict {F : Type} (xc yc : F) (l : List F) : List (PyStr × F) :=
  l.zipIdx.foldl (fun d (fi : F × ℕ) => dictSet d ("factor".toList ++ Nat.toDigits 10 fi.2) fi.1)
    (dictSet (dictSet [] "xcenter".toList xc) "ycenter".toList yc)

/-- The text written by `save_metadata_txt` (loadersaver.py, lines 747-750). -/
def metadataText {F : Type} (str : F → PyStr) (xc yc : F) (l : List F) : PyStr :=
  (metadataDict xc yc l).flatMap fun kv => kv.1 ++ " = ".toList ++ str kv.2 ++ ['\n']

/-- `save_metadata_txt` (loadersaver.py, lines 713-751). -/
noncomputable def saveMetadataTxt {F : Type} (lower : PyStr → PyStr) (str : F → PyStr) (fs : FS PyStr) (p : FilePath) (xc yc : F) (l : List F)
    (overwrite : Bool) : Except PyErr FilePath × FS PyStr :=
  save lower fs ⟨.txt, p, metadataText str xc yc l, none, overwrite⟩

/-- `float(i.split()[-1])` (loadersaver.py, line 772). -/
def lastNumber {F : Type} (float : PyStr → Except PyErr F) (line : PyStr) : Except PyErr F :=
  match (splitWords line).getLast? with
  | none => .error .indexError
  | some w => float w

/-- Reading the numbers from the text (loadersaver.py, lines 769-776). -/
def parseMetadataText {F : Type} (float : PyStr → Except PyErr F) (text : PyStr) : Except PyErr (F × F × List F) := do
  let data ← (splitLines text).mapM (lastNumber float)
  match data with
  | xc :: yc :: l => .ok (xc, yc, l)
  | _ => .error .indexError

/-- `load_metadata_txt` (loadersaver.py, lines 754-776). -/
def loadMetadataTxt {F : Type} (float : PyStr → Except PyErr F) (fs : FS PyStr) (p : FilePath) : Except PyErr (F × F × List F) := do
  parseMetadataText float (← readFile fs p)

/-- JSON numbers and arrays. -/
inductive JVal (F : Type) where
  | num (x : F)
  | arr (l : List (JVal F))

/-- The argument `list_fact`: Python numbers, numpy scalars of the types in loadersaver.py, lines 780-783, lists and tuples, numpy
arrays (as the nested lists of `tolist`), and objects of other types. -/
inductive PyVal (F : Type) where
  | num (x : F)
  | npNum (x : F)
  | seq (isTuple : Bool) (l : List (PyVal F))
  | ndarray (v : JVal F)
  | other

mutual
/-- What `json.dump(..., default=__numpy_encoder)` writes (loadersaver.py, lines 779-788, 825). -/
def PyVal.toJson {F : Type} : PyVal F → Except PyErr (JVal F)
  | .num x => .ok (.num x)
  | .npNum x => .ok (.num x)
  | .seq _ l => do .ok (.arr (← PyVal.toJsonList l))
  | .ndarray v => .ok v
  | .other => .error .typeError
/-- The elements of a list. -/
def PyVal.toJsonList {F : Type} : List (PyVal F) → Except PyErr (List (JVal F))
  | [] => .ok []
  | v :: l => do
    let a ← PyVal.toJson v
    let b ← PyVal.toJsonList l
    .ok (a :: b)
end

/-- A line break and indentation by four blanks per level. -/
def newline (k : ℕ) : PyStr := '\n' :: List.replicate (4 * k) ' '

mutual
/-- The text of a value at an indentation level (`indent=4`). -/
def printJson {F : Type} (repr : F → PyStr) (k : ℕ) : JVal F → PyStr
  | .num x => repr x
  | .arr [] => "[]".toList
  | .arr (v :: l) => '[' :: newline (k + 1) ++ printJson repr (k + 1) v ++ printTail repr (k + 1) l ++ newline k ++ [']']
/-- The elements after the first. -/
def printTail {F : Type} (repr : F → PyStr) (k : ℕ) : List (JVal F) → PyStr
  | [] => []
  | v :: l => ',' :: newline k ++ printJson repr k v ++ printTail repr k l
end

/-- The text written by `save_metadata_json` (loadersaver.py, lines 819-825). -/
def jsonText {F : Type} (repr : F → PyStr) (xc yc : F) (v : JVal F) : PyStr :=
  '{' :: newline 1 ++ "\"xcenter\": ".toList ++ repr xc ++ ',' :: newline 1 ++ "\"ycenter\": ".toList ++ repr yc ++ ',' :: newline 1 ++
    "\"list_fact\": ".toList ++ printJson repr 1 v ++ newline 0 ++ ['}']

/-- `save_metadata_json` (loadersaver.py, lines 791-826). `toFloat` is `float()`; `part` is what has been written before a
`TypeError` (the text up to the value that cannot be written). -/
noncomputable def saveMetadataJson {F : Type} (lower : PyStr → PyStr) (repr : F → PyStr) (toFloat : F → F) (part : PyStr) (fs : FS PyStr)
    (p : FilePath) (xc yc : F) (l : PyVal F) (overwrite : Bool) : Except PyErr FilePath × FS PyStr :=
  match l.toJson with
  | .ok v => save lower fs ⟨.json, p, jsonText repr (toFloat xc) (toFloat yc) v, none, overwrite⟩
  | .error e => save lower fs ⟨.json, p, part, some e, overwrite⟩

/-- White space in JSON. -/
def isJsonSpace (c : Char) : Bool := c = ' ' || c = '\t' || c = '\n' || c = '\r'

/-- Characters that end a number in JSON. -/
def isJsonDelim (c : Char) : Bool :=
  isJsonSpace c || c = ',' || c = ':' || c = '[' || c = ']' || c = '{' || c = '}' || c = '"'

/-- Skipping white space. -/
def skipWs (s : PyStr) : PyStr := s.dropWhile isJsonSpace

mutual
/-- Reading a value; `ValueError` is the base class of `JSONDecodeError`. The first argument bounds the recursion. -/
def parseJson {F : Type} (number : PyStr → Except PyErr F) : ℕ → PyStr → Except PyErr (JVal F × PyStr)
  | 0, _ => .error .diverges
  | n + 1, '[' :: r =>
    (match skipWs r with
     | ']' :: r' => .ok (.arr [], r')
     | r' => do
       let (v, r1) ← parseJson number n r'
       let (l, r2) ← parseTail number n (skipWs r1)
       .ok (.arr (v :: l), r2))
  | _ + 1, s => do
    let t := s.takeWhile fun c => !isJsonDelim c
    if t = [] then .error .valueError
    else
      let x ← number t
      .ok (.num x, s.dropWhile fun c => !isJsonDelim c)
/-- Reading the elements after the first, and the closing bracket. -/
def parseTail {F : Type} (number : PyStr → Except PyErr F) : ℕ → PyStr → Except PyErr (List (JVal F) × PyStr)
  | 0, _ => .error .diverges
  | _ + 1, ']' :: r => .ok ([], r)
  | n + 1, ',' :: r => do
    let (v, r1) ← parseJson number n (skipWs r)
    let (l, r2) ← parseTail number n (skipWs r1)
    .ok (v :: l, r2)
  | _ + 1, _ => .error .valueError
end

/-- Reading a key without escapes, a colon and a value. -/
def parsePair {F : Type} (number : PyStr → Except PyErr F) (n : ℕ) : PyStr → Except PyErr ((PyStr × JVal F) × PyStr)
  | '"' :: r =>
    (match r.dropWhile (· ≠ '"') with
     | '"' :: r1 =>
       (match skipWs r1 with
        | ':' :: r2 => do
          let (v, r3) ← parseJson number n (skipWs r2)
          .ok ((r.takeWhile (· ≠ '"'), v), r3)
        | _ => .error .valueError)
     | _ => .error .valueError)
  | _ => .error .valueError

/-- Reading the pairs after the first, and the closing brace. -/
def parsePairs {F : Type} (number : PyStr → Except PyErr F) : ℕ → PyStr → Except PyErr (List (PyStr × JVal F) × PyStr)
  | 0, _ => .error .diverges
  | _ + 1, '}' :: r => .ok ([], r)
  | n + 1, ',' :: r => do
    let (kv, r1) ← parsePair number n (skipWs r)
    let (l, r2) ← parsePairs number n (skipWs r1)
    .ok (kv :: l, r2)
  | _ + 1, _ => .error .valueError

/-- `json.load` of a file with an object whose values are numbers and arrays (loadersaver.py, line 844). -/
def parseDoc {F : Type} (number : PyStr → Except PyErr F) (text : PyStr) : Except PyErr (List (PyStr × JVal F)) :=
  match skipWs text with
  | '{' :: r =>
    (match skipWs r with
     | '}' :: r' => if skipWs r' = [] then .ok [] else .error .valueError
     | r' => do
       let (kv, r1) ← parsePair number text.length r'
       let (l, r2) ← parsePairs number text.length (skipWs r1)
       if skipWs r2 = [] then .ok ((kv :: l).foldl (fun d kv => dictSet d kv.1 kv.2) []) else .error .valueError)
  | _ => .error .valueError

/-- `d[key]`. -/
def dictGet {β : Type} (d : List (PyStr × β)) (k : PyStr) : Except PyErr β :=
  match d.find? (fun kv => kv.1 = k) with
  | some kv => .ok kv.2
  | none => .error .keyError

/-- `load_metadata_json` (loadersaver.py, lines 829-848). -/
def loadMetadataJson {F : Type} (number : PyStr → Except PyErr F) (fs : FS PyStr) (p : FilePath) :
    Except PyErr (JVal F × JVal F × JVal F) := do
  let d ← parseDoc number (← readFile fs p)
  let xc ← dictGet d "xcenter".toList
  let yc ← dictGet d "ycenter".toList
  let l ← dictGet d "list_fact".toList
  .ok (xc, yc, l)

end Discorpy
