import Verif.Props.Items
import Verif.Lemmas.Flip2

/-!
# C88: types of which decoding and encoding changes nothing
-/

namespace Dash7
open Sample Spec

/-- The bits `from_bytes` took: those in front of the rest it handed back. -/
def Spec.consumed (data : List U8) (rest : Rest) : List Bool :=
  (Form.ofBytes data).take (8 * (data.length - rest.1.length) + rest.2)

/-- The types with reserved bits, lengths or compressed integers in them; all others have but one form for
each value. -/
def Spec.oneForm : Item → Bool
  | .channelHeader | .channel | .subProfile | .accessProfile | .addressee | .varInt | .length | .fileOffset
  | .fileProperties | .fileHeader | .dllConfig | .dllStatus | .engineeringMode | .dash7InterfaceStatus
  | .dash7InterfaceTxStatus | .dash7InterfaceConfiguration | .loRaWAN | .loRaWANOTAA | .loRaWANABP
  | .interfaceConfiguration | .indirectInterface | .query | .nonVoid | .comparisonWithZero | .comparisonWithValue
  | .comparisonWithOtherFile | .bitmapRangeComparison | .stringTokenSearch | .interfaceStatusOperation
  | .interfaceFinalStatusOperation | .interfaceTxStatusOperation | .forwardHeader | .requestTagHeader
  | .netControl | .hoppingControl => false
  | _ => true

theorem Item.rigid_transControl (c : Trans.Control) : ∃ n, Rigid (Form.transControl c) n :=
  ⟨_, .cons (.flag _) <| .cons (.flag _) <| .cons (.flag _) <| .cons (.flag _) <| .cons (.flag _) <|
    .cons (.flag _) <| .cons (.flag _) .nil⟩

theorem Item.rigid_background (big : Bool) (f : BackgroundFrame) : ∃ n, Rigid (Form.backgroundFrame big f) n :=
  ⟨_, .cons (.field _ _) <| .cons (.cons (.field _ _) <| .cons (.field _ _) .nil) <|
    .cons (.hostNumber _ _ _) <| .cons (.hostNumber _ _ _) .nil⟩

theorem Item.rigid_status {v : Variant} {u : Bool} (s : Op.Status) :
    ∃ n, Rigid (Form.status v u .action s) n := by
  cases s with
  | action s => exact ⟨_, .cons (.field _ _) <| .cons (.field _ _) .nil⟩
  | interface _ => exact ⟨_, .given _⟩
  | interfaceFinal _ => exact ⟨_, .given _⟩

/-- Where there is one form only, the forms of a value are equal. -/
theorem Item.rigid (cfg : Cfg) (i : Item) (h : oneForm i = true) (v : i.Val) :
    ∃ n, Rigid (Form.item cfg i v) n := by
  cases i <;> first
    | exact absurd h (by decide)
    | exact ⟨_, Rigid.field _ _⟩
    | exact ⟨_, Rigid.channelStatus _⟩
    | exact ⟨_, Rigid.subBand _⟩
    | exact ⟨_, Rigid.accessClass _⟩
    | exact ⟨_, Rigid.userPermissions _⟩
    | exact ⟨_, Rigid.filePermissions _⟩
    | exact ⟨_, Rigid.factorySettings _⟩
    | exact ⟨_, Rigid.firmwareVersion _⟩
    | exact ⟨_, Rigid.phyStatus _⟩
    | exact ⟨_, Rigid.hostNumber _ _ _⟩
    | exact ⟨_, Rigid.given _⟩
    | exact ⟨_, Rigid.qos _⟩
    | exact ⟨_, Rigid.finalStatusCode _⟩
    | exact ⟨_, Rigid.arithmetic _⟩
    | exact ⟨_, Rigid.range _⟩
    | exact ⟨_, Rigid.permission _⟩
    | exact ⟨_, Rigid.header _⟩
    | exact Item.rigid_status v
    | exact ⟨_, Rigid.cons (Rigid.field _ _) (Rigid.cons (Rigid.field _ _) Rigid.nil)⟩
    | exact ⟨_, Rigid.cons (Rigid.flag _) (Rigid.cons (Rigid.flag _) Rigid.nil)⟩
    | exact ⟨_, Rigid.cons (Rigid.field _ _) (Rigid.cons (Rigid.field _ _) (Rigid.cons (Rigid.field _ _) Rigid.nil))⟩
    | exact Item.rigid_transControl v
    | exact Item.rigid_background _ v

theorem Spec.consumed_eq {data : List U8} {rest : Rest} {form more : List Bool}
    (h : Form.ofBytes data = form ++ more)
    (hr : rest = (data.drop (form.length / 8), form.length % 8)) : consumed data rest = form := by
  subst hr
  have hl := congrArg List.length h
  rw [Form.ofBytes_length, List.length_append] at hl
  unfold consumed
  rw [List.length_drop, show 8 * (data.length - (data.length - form.length / 8)) + form.length % 8 = form.length
    by omega, h, List.take_left]

/-- **C88** What `T::from_bytes` took of the input is what encoding the value gives, up to the zeros filling the
last byte. -/
theorem C88_from_bytes (cfg : Cfg) (i : Item) (hi : oneForm i = true) (data : List U8) (rest : Rest) (v : i.Val)
    (h : i.fromBytes cfg (data, 0) = .ok (rest, v)) :
    ∃ bytes zeros, i.toBytes cfg v = .ok bytes ∧ zeros < 8 ∧
      Form.ofBytes bytes = consumed data rest ++ List.replicate zeros false := by
  obtain ⟨-, form, more, h1, h2, h3⟩ := (C59_from_bytes cfg i data 0 rest v).1 h
  rw [List.drop_zero] at h1
  rw [Nat.zero_add] at h3
  obtain ⟨bytes, written, zeros, k1, k2, k3, k4, -⟩ := C60_from_bytes_partial cfg i v form h2 (by
    intro hu
    cases i <;> first | exact hu | exact absurd hi (by decide))
  obtain ⟨n, hn⟩ := Item.rigid cfg i hi v
  rw [consumed_eq h1 h3, ← hn.eq _ _ k3 h2]
  exact ⟨bytes, _, k1, Nat.mod_lt _ (by decide), by rw [k2, k4]⟩

/-- **C88** What `T::try_from` accepts is just what the value is encoded to. -/
theorem C88_try_from (cfg : Cfg) (i : Item) (hi : oneForm i = true) (data : List U8) (v : i.Val)
    (h : i.tryFrom cfg data = .ok v) : i.toBytes cfg v = .ok data := by
  have h2 := (C59_try_from cfg i data v).1 h
  obtain ⟨bytes, written, zeros, k1, k2, k3, k4, -⟩ := C60_from_bytes_partial cfg i v _ h2 (by
    intro hu
    cases i <;> first | exact hu | exact absurd hi (by decide))
  obtain ⟨n, hn⟩ := Item.rigid cfg i hi v
  have hw := Item.width h2
  rw [Form.ofBytes_length] at hw
  rw [show (8 - bitsOver cfg i) % 8 = 0 by omega, List.replicate_zero] at k4
  rw [k4, List.append_nil, hn.eq _ _ k3 h2, Form.ofBytes_eq, Form.ofBytes_eq] at k2
  rw [k1, bytesBits_inj k2]

/-- Does decoding and encoding change what was taken of these bytes? -/
def Spec.changes (cfg : Cfg) (i : Item) (data : List U8) : Bool :=
  match i.fromBytes cfg (data, 0) with
  | .ok (rest, v) =>
    match i.toBytes cfg v with
    | .ok bytes => !(consumed data rest).isPrefixOf (Form.ofBytes bytes)
    | .error _ => false
  | .error _ => false

/-- Bytes which are changed by decoding and encoding, for the types with more than one form: reserved bits
set, a length longer than necessary or not looked at, a zero with an exponent. -/
def Spec.changed : Item → List U8
  | .channelHeader => [0x80]
  | .channel => [0x80, 0, 0]
  | .subProfile => [0, 0x20]
  | .accessProfile => 0x80 :: List.replicate 64 0
  | .addressee => [0, 0, 0x20]
  | .varInt => [0x20]
  | .length => [0x40, 0]
  | .fileOffset => [0, 0x40, 0]
  | .fileProperties => [0x0C]
  | .fileHeader => 0 :: 0x0C :: List.replicate 10 0
  | .dllConfig => [0, 1, 0, 0, 0, 0, 0]
  | .dllStatus => 0 :: 0 :: 0 :: 0x80 :: List.replicate 12 0
  | .engineeringMode => [0, 0, 0, 0x80, 0, 0, 0]
  | .dash7InterfaceStatus => 0x80 :: List.replicate 12 0
  | .dash7InterfaceTxStatus => 0x80 :: List.replicate 15 0
  | .dash7InterfaceConfiguration => [0, 0x20, 0, 0, 0, 0]
  | .loRaWAN => [0x80, 0, 0]
  | .loRaWANOTAA => 0x80 :: List.replicate 34 0
  | .loRaWANABP => 0x80 :: List.replicate 42 0
  | .interfaceConfiguration => 2 :: 0x80 :: List.replicate 42 0
  | .indirectInterface => [0xD7, 0, 0, 0x20]
  | .query => [0x01, 0, 0, 0]
  | .nonVoid => [0x08, 0, 0, 0]
  | .comparisonWithZero | .comparisonWithValue | .comparisonWithOtherFile | .bitmapRangeComparison
  | .stringTokenSearch => 0x02 :: List.replicate 9 0
  | .interfaceStatusOperation => [0, 5]
  | .interfaceFinalStatusOperation => [0xD7, 5, 0]
  | .interfaceTxStatusOperation => 0xD7 :: 0 :: 0x80 :: List.replicate 15 0
  | .forwardHeader => [0x80]
  | .requestTagHeader => [0x40]
  | .netControl => [0x08, 0]
  | .hoppingControl => [0x80]
  | _ => []

/-- All configurations. -/
def Spec.configurations : List Cfg :=
  [.spec, .subiot, .wizzilab].flatMap fun v => [false, true].flatMap fun a => [false, true].flatMap fun b =>
    [false, true].flatMap fun c => [false, true].map fun d => ⟨v, a, b, c, d⟩

theorem Spec.mem_configurations (cfg : Cfg) : cfg ∈ configurations := by
  rcases cfg with ⟨v, a, b, c, d⟩
  cases v <;> cases a <;> cases b <;> cases c <;> cases d <;> decide

theorem Spec.changed_spec (i : Item) (hi : oneForm i = false) :
    ∀ cfg ∈ configurations, changes cfg i (changed i) = true := by
  cases i <;> first | exact absurd hi (by decide) | decide +kernel

/-- **C88** All other types have an input which is changed: some of the bits taken of it are not those
encoding the value gives. -/
theorem C88_only (cfg : Cfg) (i : Item) (hi : oneForm i = false) :
    ∃ data rest v bytes, i.fromBytes cfg (data, 0) = .ok (rest, v) ∧ i.toBytes cfg v = .ok bytes ∧
      ¬ consumed data rest <+: Form.ofBytes bytes := by
  have h := changed_spec i hi cfg (mem_configurations cfg)
  unfold changes at h
  split at h
  · rename_i rest v h1
    split at h
    · rename_i bytes h2
      refine ⟨_, rest, v, bytes, h1, h2, fun hp => ?_⟩
      rw [List.isPrefixOf_iff_prefix.2 hp] at h
      cases h
    · cases h
  · cases h

/-- Three bytes come back as they were; of seven flags the bit behind them is not theirs. -/
example : oneForm .channelStatus = true ∧ oneForm .transControl = true ∧
    (∃ v, Item.channelStatus.tryFrom spec [0x6F, 0xFF, 0x12] = .ok v ∧
      Item.channelStatus.toBytes spec v = .ok [0x6F, 0xFF, 0x12]) ∧
    ∃ v, Item.transControl.fromBytes spec ([0xAB, 0xCD], 0) = .ok (([0xAB, 0xCD], 7), v) ∧
      Item.transControl.toBytes spec v = .ok [0xAA] := by
  refine ⟨rfl, rfl, ⟨⟨⟨.band868, .khz25, 0x7FF⟩, 0x12⟩, ?_⟩, ⟨true, false, true, false, true, false, true⟩, ?_⟩ <;>
    decide +kernel

#print axioms C88_from_bytes
#print axioms C88_try_from
#print axioms C88_only

end Dash7
