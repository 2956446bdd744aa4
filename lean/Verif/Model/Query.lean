import Verif.Model.Types

/-!
# `dash7/src/app/query.rs`
-/

namespace Dash7

/-- `/repo/dash7/src/app/query.rs:5-21` (`ArithmeticComparisonType`). -/
inductive ArithmeticComparisonType
  | inequal | equal | lessThan | lessThanOrEqual | greaterThan | greaterThanOrEqual
  deriving DecidableEq, Repr

/-- `/repo/dash7/src/app/query.rs:9-20` (ids). -/
def ArithmeticComparisonType.id : ArithmeticComparisonType → U8
  | .inequal => 0 | .equal => 1 | .lessThan => 2 | .lessThanOrEqual => 3 | .greaterThan => 4
  | .greaterThanOrEqual => 5

/-- `/repo/dash7/src/app/query.rs:9-20` (ids, reading). -/
def ArithmeticComparisonType.ofId (i : U8) : Option ArithmeticComparisonType :=
  match i.toNat with
  | 0 => some .inequal | 1 => some .equal | 2 => some .lessThan | 3 => some .lessThanOrEqual
  | 4 => some .greaterThan | 5 => some .greaterThanOrEqual | _ => none

/-- `/repo/dash7/src/app/query.rs:5-6` (derived reader, 3 bits). -/
def ArithmeticComparisonType.read : P ArithmeticComparisonType := P.enum 3 ofId
/-- `/repo/dash7/src/app/query.rs:5-6` (derived writer, 3 bits). -/
def ArithmeticComparisonType.write (c : ArithmeticComparisonType) : W := W.uint 3 c.id

/-- `/repo/dash7/src/app/query.rs:23-28` (`ArithmeticQueryParams`). -/
structure ArithmeticQueryParams where
  signed : Bool
  comparisonType : ArithmeticComparisonType
  deriving DecidableEq, Repr

/-- `/repo/dash7/src/app/query.rs:23-28` (derived reader). -/
def ArithmeticQueryParams.read : P ArithmeticQueryParams := do
  let s ← P.flag
  let c ← ArithmeticComparisonType.read
  P.pure ⟨s, c⟩

/-- `/repo/dash7/src/app/query.rs:23-28` (derived writer). -/
def ArithmeticQueryParams.write (p : ArithmeticQueryParams) : W :=
  W.seq [W.flag p.signed, p.comparisonType.write]

/-- `/repo/dash7/src/app/query.rs:30-38` (`RangeComparisonType`). -/
inductive RangeComparisonType | notInRange | inRange
  deriving DecidableEq, Repr

/-- `/repo/dash7/src/app/query.rs:34-37` (ids). -/
def RangeComparisonType.id : RangeComparisonType → U8
  | .notInRange => 0 | .inRange => 1

/-- `/repo/dash7/src/app/query.rs:34-37` (ids, reading). -/
def RangeComparisonType.ofId (i : U8) : Option RangeComparisonType :=
  match i.toNat with
  | 0 => some .notInRange | 1 => some .inRange | _ => none

/-- `/repo/dash7/src/app/query.rs:30-31` (derived reader, 3 bits). -/
def RangeComparisonType.read : P RangeComparisonType := P.enum 3 ofId
/-- `/repo/dash7/src/app/query.rs:30-31` (derived writer, 3 bits). -/
def RangeComparisonType.write (c : RangeComparisonType) : W := W.uint 3 c.id

/-- `/repo/dash7/src/app/query.rs:40-45` (`RangeQueryParams`). -/
structure RangeQueryParams where
  signed : Bool
  comparisonType : RangeComparisonType
  deriving DecidableEq, Repr

/-- `/repo/dash7/src/app/query.rs:40-45` (derived reader). -/
def RangeQueryParams.read : P RangeQueryParams := do
  let s ← P.flag
  let c ← RangeComparisonType.read
  P.pure ⟨s, c⟩

/-- `/repo/dash7/src/app/query.rs:40-45` (derived writer). -/
def RangeQueryParams.write (p : RangeQueryParams) : W :=
  W.seq [W.flag p.signed, p.comparisonType.write]

/-- `Vec<u8>` field with `cond = "*mask_present", count = "length"`
(`/repo/dash7/src/app/query.rs:89,117,152`): absent means empty. -/
def readMaskIf (present : Bool) (length : Length) : P (List U8) :=
  if present then P.count P.u8 length.toNat else P.pure []

/-- `/repo/dash7/src/app/query.rs:72-77` (`NonVoid`). -/
structure NonVoid where
  length : Length
  file : FileOffset
  deriving DecidableEq, Repr

/-- `/repo/dash7/src/app/query.rs:72-77` (derived reader; five padding bits first). -/
def NonVoid.read : P NonVoid := do
  P.pad 5
  let l ← Length.read
  let f ← FileOffset.read
  P.pure ⟨l, f⟩

/-- `/repo/dash7/src/app/query.rs:72-77` (derived writer). -/
def NonVoid.write (q : NonVoid) : W := W.seq [W.pad 5, q.length.write, q.file.write]

/-- `/repo/dash7/src/app/query.rs:79-92` (`ComparisonWithZero`). -/
structure ComparisonWithZero where
  maskPresent : Bool
  params : ArithmeticQueryParams
  length : Length
  mask : List U8
  file : FileOffset
  deriving DecidableEq, Repr

/-- `/repo/dash7/src/app/query.rs:95-103` (`ComparisonWithZero::new`). -/
def ComparisonWithZero.new (params : ArithmeticQueryParams) (mask : List U8) (file : FileOffset) :
    ComparisonWithZero :=
  ⟨decide (mask.length > 0), params, Length.ofUsize mask.length, mask, file⟩

/-- `/repo/dash7/src/app/query.rs:81,86` (derived `update`). -/
def ComparisonWithZero.update (q : ComparisonWithZero) : ComparisonWithZero :=
  { q with maskPresent := decide (q.mask.length > 0), length := Length.ofUsize q.mask.length }

/-- `/repo/dash7/src/app/query.rs:79-92` (derived reader). -/
def ComparisonWithZero.read : P ComparisonWithZero := do
  let m ← P.flag
  let p ← ArithmeticQueryParams.read
  let l ← Length.read
  let mask ← readMaskIf m l
  let f ← FileOffset.read
  P.pure ⟨m, p, l, mask, f⟩

/-- `/repo/dash7/src/app/query.rs:79-92` (derived writer). -/
def ComparisonWithZero.write (q : ComparisonWithZero) : W :=
  W.seq [W.flag q.maskPresent, q.params.write, q.length.write, W.list W.u8 q.mask, q.file.write]

/-- `/repo/dash7/src/app/query.rs:107-124` (`ComparisonWithValue`). -/
structure ComparisonWithValue where
  maskPresent : Bool
  params : ArithmeticQueryParams
  length : Length
  mask : List U8
  value : List U8
  file : FileOffset
  deriving DecidableEq, Repr

/-- `/repo/dash7/src/app/query.rs:127-141` (`ComparisonWithValue::new`). -/
def ComparisonWithValue.new (params : ArithmeticQueryParams) (mask value : List U8)
    (file : FileOffset) : ComparisonWithValue :=
  ⟨decide (mask.length > 0), params, Length.ofUsize value.length, mask, value, file⟩

/-- `/repo/dash7/src/app/query.rs:109,114` (derived `update`). -/
def ComparisonWithValue.update (q : ComparisonWithValue) : ComparisonWithValue :=
  { q with maskPresent := decide (q.mask.length > 0), length := Length.ofUsize q.value.length }

/-- `/repo/dash7/src/app/query.rs:107-124` (derived reader). -/
def ComparisonWithValue.read : P ComparisonWithValue := do
  let m ← P.flag
  let p ← ArithmeticQueryParams.read
  let l ← Length.read
  let mask ← readMaskIf m l
  let v ← P.count P.u8 l.toNat
  let f ← FileOffset.read
  P.pure ⟨m, p, l, mask, v, f⟩

/-- `/repo/dash7/src/app/query.rs:107-124` (derived writer). -/
def ComparisonWithValue.write (q : ComparisonWithValue) : W :=
  W.seq [W.flag q.maskPresent, q.params.write, q.length.write, W.list W.u8 q.mask,
    W.list W.u8 q.value, q.file.write]

/-- `/repo/dash7/src/app/query.rs:145-157` (`ComparisonWithOtherFile`). -/
structure ComparisonWithOtherFile where
  maskPresent : Bool
  params : ArithmeticQueryParams
  length : Length
  mask : List U8
  file1 : FileOffset
  file2 : FileOffset
  deriving DecidableEq, Repr

/-- `/repo/dash7/src/app/query.rs:160-174` (`ComparisonWithOtherFile::new`). -/
def ComparisonWithOtherFile.new (params : ArithmeticQueryParams) (mask : List U8)
    (file1 file2 : FileOffset) : ComparisonWithOtherFile :=
  ⟨decide (mask.length > 0), params, Length.ofUsize mask.length, mask, file1, file2⟩

/-- `/repo/dash7/src/app/query.rs:147` (derived `update`). -/
def ComparisonWithOtherFile.update (q : ComparisonWithOtherFile) : ComparisonWithOtherFile :=
  { q with maskPresent := decide (q.mask.length > 0) }

/-- `/repo/dash7/src/app/query.rs:145-157` (derived reader). -/
def ComparisonWithOtherFile.read : P ComparisonWithOtherFile := do
  let m ← P.flag
  let p ← ArithmeticQueryParams.read
  let l ← Length.read
  let mask ← readMaskIf m l
  let f1 ← FileOffset.read
  let f2 ← FileOffset.read
  P.pure ⟨m, p, l, mask, f1, f2⟩

/-- `/repo/dash7/src/app/query.rs:145-157` (derived writer). -/
def ComparisonWithOtherFile.write (q : ComparisonWithOtherFile) : W :=
  W.seq [W.flag q.maskPresent, q.params.write, q.length.write, W.list W.u8 q.mask, q.file1.write,
    q.file2.write]

/-- `/repo/dash7/src/app/query.rs:178-195` (`BitmapRangeComparison`). -/
structure BitmapRangeComparison where
  maskPresent : Bool
  params : RangeQueryParams
  length : Length
  start : Length
  stop : Length
  mask : List U8
  file : FileOffset
  deriving DecidableEq, Repr

/-- `/repo/dash7/src/app/query.rs:198-214` (`BitmapRangeComparison::new`). -/
def BitmapRangeComparison.new (params : RangeQueryParams) (start stop : U32) (mask : List U8)
    (file : FileOffset) : BitmapRangeComparison :=
  ⟨decide (mask.length > 0), params, Length.ofUsize mask.length, ⟨start⟩, ⟨stop⟩, mask, file⟩

/-- `/repo/dash7/src/app/query.rs:180` (derived `update`). -/
def BitmapRangeComparison.update (q : BitmapRangeComparison) : BitmapRangeComparison :=
  { q with maskPresent := decide (q.mask.length > 0) }

/-- `/repo/dash7/src/app/query.rs:178-195` (derived reader; the mask is read unconditionally). -/
def BitmapRangeComparison.read : P BitmapRangeComparison := do
  let m ← P.flag
  let p ← RangeQueryParams.read
  let l ← Length.read
  let a ← Length.read
  let o ← Length.read
  let mask ← P.count P.u8 l.toNat
  let f ← FileOffset.read
  P.pure ⟨m, p, l, a, o, mask, f⟩

/-- `/repo/dash7/src/app/query.rs:178-195` (derived writer). -/
def BitmapRangeComparison.write (q : BitmapRangeComparison) : W :=
  W.seq [W.flag q.maskPresent, q.params.write, q.length.write, q.start.write, q.stop.write,
    W.list W.u8 q.mask, q.file.write]

/-- `/repo/dash7/src/app/query.rs:219-238` (`StringTokenSearch`). -/
structure StringTokenSearch where
  maskPresent : Bool
  maxErrors : U8
  length : Length
  mask : List U8
  value : List U8
  file : FileOffset
  deriving DecidableEq, Repr

/-- `/repo/dash7/src/app/query.rs:241-250` (`StringTokenSearch::new`). -/
def StringTokenSearch.new (maxErrors : U8) (mask value : List U8) (file : FileOffset) :
    StringTokenSearch :=
  ⟨decide (mask.length > 0), maxErrors, Length.ofUsize value.length, mask, value, file⟩

/-- `/repo/dash7/src/app/query.rs:221,228` (derived `update`). -/
def StringTokenSearch.update (q : StringTokenSearch) : StringTokenSearch :=
  { q with maskPresent := decide (q.mask.length > 0), length := Length.ofUsize q.value.length }

/-- `/repo/dash7/src/app/query.rs:219-238` (derived reader; the mask is read unconditionally). -/
def StringTokenSearch.read : P StringTokenSearch := do
  let m ← P.flag
  P.pad 1
  let e ← P.uint 8 3
  let l ← Length.read
  let mask ← P.count P.u8 l.toNat
  let v ← P.count P.u8 l.toNat
  let f ← FileOffset.read
  P.pure ⟨m, e, l, mask, v, f⟩

/-- `/repo/dash7/src/app/query.rs:219-238` (derived writer). -/
def StringTokenSearch.write (q : StringTokenSearch) : W :=
  W.seq [W.flag q.maskPresent, W.pad 1, W.uint 3 q.maxErrors, q.length.write, W.list W.u8 q.mask,
    W.list W.u8 q.value, q.file.write]

/-- `/repo/dash7/src/app/query.rs:47-62` (`Query`). -/
inductive Query
  | nonVoid (q : NonVoid)
  | comparisonWithZero (q : ComparisonWithZero)
  | comparisonWithValue (q : ComparisonWithValue)
  | comparisonWithOtherFile (q : ComparisonWithOtherFile)
  | bitmapRangeComparison (q : BitmapRangeComparison)
  | stringTokenSearch (q : StringTokenSearch)
  deriving DecidableEq, Repr

/-- `/repo/dash7/src/app/query.rs:47-62` (derived reader, 3-bit id). -/
def Query.read : P Query := do
  let i ← P.uint 8 3
  match i.toNat with
  | 0 => do let q ← NonVoid.read; P.pure (.nonVoid q)
  | 1 => do let q ← ComparisonWithZero.read; P.pure (.comparisonWithZero q)
  | 2 => do let q ← ComparisonWithValue.read; P.pure (.comparisonWithValue q)
  | 3 => do let q ← ComparisonWithOtherFile.read; P.pure (.comparisonWithOtherFile q)
  | 4 => do let q ← BitmapRangeComparison.read; P.pure (.bitmapRangeComparison q)
  | 7 => do let q ← StringTokenSearch.read; P.pure (.stringTokenSearch q)
  | _ => P.fail .parse

/-- `/repo/dash7/src/app/query.rs:47-62` (derived writer). -/
def Query.write : Query → W
  | .nonVoid q => W.seq [W.uint 3 0#8, q.write]
  | .comparisonWithZero q => W.seq [W.uint 3 1#8, q.write]
  | .comparisonWithValue q => W.seq [W.uint 3 2#8, q.write]
  | .comparisonWithOtherFile q => W.seq [W.uint 3 3#8, q.write]
  | .bitmapRangeComparison q => W.seq [W.uint 3 4#8, q.write]
  | .stringTokenSearch q => W.seq [W.uint 3 7#8, q.write]

end Dash7
