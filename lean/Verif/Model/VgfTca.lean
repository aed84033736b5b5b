import Verif.Model.VgfDec

/-!
# Model of decode/vgf.py: the text of a tropical cyclone advisory

Conversion of text to floating point numbers is a parameter.  `int()` knows the ASCII digits only, and no limit on their number.
-/

namespace Gempak
variable {ν : Type}

/-- ASCII digit. -/
def isDec (c : Char) : Bool := decide ('0' ≤ c ∧ c ≤ '9')

/-- `s.split(c)`. -/
def splitChar (c : Char) : Text → List Text
  | [] => [[]]
  | x :: r =>
    if x = c then [] :: splitChar c r
    else match splitChar c r with
      | g :: gs => (x :: g) :: gs
      | [] => [[x]]

/-- The digits of an integer literal, with underscores between them. -/
def decBody (t : Text) : Except PyErr Nat :=
  if (splitChar '_' t).all (fun g => decide (g ≠ []) && g.all isDec) then
    .ok ((t.filter (· ≠ '_')).foldl (fun n c => 10 * n + (c.toNat - 48)) 0)
  else .error .valueError

/-- `int(s)` of a string. -/
def pyIntText (s : Text) : Except PyErr Int :=
  match strip s with
  | '-' :: t => (decBody t).map fun (n : Nat) => -(n : Int)
  | '+' :: t => (decBody t).map fun (n : Nat) => (n : Int)
  | t => (decBody t).map fun (n : Nat) => (n : Int)

/-- `(.+?)` followed by the end given: one character or more, no line feed, as few as possible. -/
def lazyText (ends : Text → Bool) : Text → Option Text
  | [] => none
  | c :: r =>
    if c = '\n' then none
    else if ends r then some [c]
    else (lazyText ends r).map (c :: ·)

/-- `re.search(r'(?<=tag)(.+?)(?=end)', s)`: the first place right after the tag where the text matches. -/
def searchAfter (tag : Text) (ends : Text → Bool) : Text → Option Text
  | [] => none
  | c :: r =>
    if tag.isPrefixOf (c :: r) then
      match lazyText ends ((c :: r).drop tag.length) with
      | some v => some v
      | none => searchAfter tag ends r
    else searchAfter tag ends r

/-- `(?=<)`. -/
def atTag : Text → Bool
  | '<' :: _ => true
  | _ => false

/-- `(?=<|$)`: `$` matches at the end and before a line feed at the end. -/
def atTagOrEnd (s : Text) : Bool := atTag s || decide (s = []) || decide (s = ['\n'])

/-- `<tca_name>`. -/
def tcaTag (name : Text) : Text := txt "<tca_" ++ name ++ ['>']

/-- `re.search(..).group()`: without a match `None` has no attribute `group`. -/
def tcaField (ends : Text → Bool) (name : Text) (s : Text) : Except PyErr Text :=
  match searchAfter (tcaTag name) ends s with
  | some v => .ok v
  | none => .error .attributeError

/-- `int(re.search(..).group())`. -/
def tcaInt (name : Text) (s : Text) : Except PyErr Int := (tcaField atTag name s).bind pyIntText

/-- `np.array_split(l, n)`: `n` parts, the first ones longer by one where the length is no multiple. -/
def arraySplit {α : Type} (l : List α) (n : Int) : Except PyErr (List (List α)) :=
  if n ≤ 0 then .error .valueError
  else
    let k := n.toNat
    .ok ((List.range k).map fun i => (l.drop (i * (l.length / k) + min i (l.length % k))).take
      (if i < l.length % k then l.length / k + 1 else l.length / k))

/-- `[float(lat), float(lon), bname] for lat, lon, bname in ..` (decode/vgf.py:4245-4247). -/
def breakPoint (float : Text → Except PyErr ν) : List Text → Except PyErr (DRec ν)
  | [lat, lon, name] => do
    let y ← float lat
    let x ← float lon
    .ok [("lat", .num y), ("lon", .num x), ("name", .text name)]
  | _ => .error .valueError

/-- A value of an `IntEnum` whose values are 0 to `n − 1`. -/
def tcaEnum (n : Int) (i : Int) : Except PyErr Int := if 0 ≤ i ∧ i < n then .ok i else .error .valueError

/-- One watch or warning (decode/vgf.py:4234-4257; enumerations :246-278). -/
def tcaWarning (float : Text → Except PyErr ν) (s : Text) (n : Nat) : Except PyErr (DRec ν) := do
  let no := Nat.toDigits 10 n
  let wwstr ← tcaField atTag (txt "tcawwStr_" ++ no) s
  let nbreaks ← tcaInt (txt "numBreakPts_" ++ no) s
  let breakpts ← tcaField atTagOrEnd (txt "breakPts_" ++ no) s
  match splitChar '|' wwstr with
  | [a, b, c] => do
    let parts ← arraySplit (splitChar '|' breakpts) nbreaks
    let breaks ← parts.mapM (breakPoint float)
    let severity ← (pyIntText a).bind (tcaEnum 2)
    let type ← (pyIntText b).bind (tcaEnum 2)
    let geography ← (pyIntText c).bind (tcaEnum 3)
    .ok [("severity", .int severity), ("advisory_type", .int type), ("special_geography", .int geography),
      ("number_breaks", .int nbreaks), ("break_points", .recs breaks)]
  | _ => .error .valueError

/-- `_decode_tca` from its text on (decode/vgf.py:4204-4278).  The element is added within the loop over watches and warnings,
and all these elements share the list `ww`, so that each has all of it in the end. -/
def parseTca (float : Text → Except PyErr ν) (s : Text) : Except PyErr (List (DRec ν)) := do
  let number ← tcaInt (txt "stormNum") s
  let status ← tcaField atTag (txt "issueStatus") s
  let basin ← tcaInt (txt "basin") s
  let advisory ← tcaInt (txt "advisoryNum") s
  let name ← tcaField atTag (txt "stormName") s
  let type ← tcaInt (txt "stormType") s
  let valid ← tcaField atTag (txt "validTime") s
  let zone ← tcaField atTag (txt "timezone") s
  let lat ← (tcaField atTag (txt "textLat") s).bind float
  let lon ← (tcaField atTag (txt "textLon") s).bind float
  let font ← tcaInt (txt "textFont") s
  let size ← (tcaField atTag (txt "textSize") s).bind float
  let width ← tcaInt (txt "textWidth") s
  let wwnum ← tcaInt (txt "wwNum") s
  let ww ← (List.range wwnum.toNat).mapM (tcaWarning float s)
  .ok (List.replicate wwnum.toNat [("storm_number", .int number), ("issue_status", .text status), ("basin", .int basin),
    ("advisory_number", .int advisory), ("storm_name", .text name), ("storm_type", .int type), ("valid_time", .text valid),
    ("timezone", .text zone), ("text_lat", .num lat), ("text_lon", .num lon), ("text_font", .int font),
    ("text_size", .num size), ("text_width", .int width), ("number_ww", .int wwnum), ("ww", .recs ww)])

end Gempak
