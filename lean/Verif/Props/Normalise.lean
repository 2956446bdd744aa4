import Verif.Props.Roundtrip
import Verif.Props.Ends

/-!
# C03, C43: re-encoding what was decoded, and the size of what was decoded
-/

namespace Dash7
open Sample

/-! ## C03 -/

/-- Actions whose length operand has to be two bytes because of the size of a structured file: access
profiles (65 bytes) and PHY status files with at least 17 channels. -/
def Spec.holdsLargeFile : Action → Bool
  | .writeFileData o | .writeFileDataFlush o | .returnFileData o =>
    match o.data with
    | .accessProfile _ _ => true
    | .phyStatus f => decide (17 ≤ f.channelStatus.length)
    | _ => false
  | _ => false

theorem slack_eq (a : Action) : a.slack = if Spec.holdsLargeFile a then 8 else 0 := by
  have : ∀ f : File, f.slack = if (match f with
    | .accessProfile _ _ => true
    | .phyStatus f => decide (17 ≤ f.channelStatus.length)
    | _ => false) then 8 else 0 := by
    intro f; cases f <;> simp [File.slack]
  cases a <;> first | exact this _ | rfl

theorem Decoded.write_list {cfg : Cfg} {ps : List (Action × Nat)}
    (h : ∀ p ∈ ps, Action.Decoded cfg p.1 p.2) :
    LenLe (W.list (Action.write cfg) (ps.map Prod.fst))
      ((ps.map Prod.snd).sum + 8 * (ps.map Prod.fst).countP Spec.holdsLargeFile) := by
  induction ps with
  | nil => exact LenLe.nil
  | cons p ps ih =>
    have h1 := (h p (by simp)).len
    have h2 := ih fun q hq => h q (by simp [hq])
    rw [slack_eq] at h1
    refine (LenLe.cons (ws := (ps.map Prod.fst).map (Action.write cfg)) h1 h2).mono ?_
    simp only [List.map_cons, List.sum_cons, List.countP_cons]
    split <;> omega

/-- What a successful decoding went through. -/
theorem Command.fromBytes_decoded {cfg : Cfg} {data : List U8} {rest : Rest} {c : Command}
    (h : Command.fromBytes cfg (data, 0) = .ok (rest, c)) :
    ∃ ps : List (Action × Nat), c.actions = ps.map Prod.fst ∧
      (∀ p ∈ ps, Action.Decoded cfg p.1 p.2) ∧ (ps.map Prod.snd).sum ≤ 8 * data.length := by
  obtain ⟨r', hr, -⟩ := Command.fromBytes_read h
  obtain ⟨ps, hps, -, -, hd, hsum, -⟩ := Command.loop_ok (Rd.new_con data).toOK (Command.read_ok hr)
  refine ⟨ps, by simpa using hps, hd, ?_⟩
  rw [Rd.new_rem, bytesBits_length] at hsum
  omega

/-- **C03** Whatever was decoded can be encoded again, and the result is not longer than the input,
apart from one byte for each large system file. -/
theorem C03_reencodes (cfg : Cfg) (data : List U8) (c : Command)
    (h : Command.tryFrom cfg data = .ok c) :
    ∃ bytes, c.toBytes cfg = .ok bytes ∧
      bytes.length ≤ data.length + c.actions.countP Spec.holdsLargeFile := by
  obtain ⟨n, hf⟩ := Command.tryFrom_fromBytes h
  obtain ⟨ps, hps, hd, hsum⟩ := Command.fromBytes_decoded hf
  obtain ⟨bs, hbs, hlen⟩ := Decoded.write_list hd
  rw [← hps] at hbs hlen
  refine ⟨packBits bs, ?_, ?_⟩
  · show W.toBytes (W.list (Action.write cfg) c.actions) = _
    rw [hbs]; rfl
  · rw [packBits_length]
    omega

/-- **C03** Decoding what was encoded again gives the same command, if it holds neither a TX status nor
the status of an unknown interface. -/
theorem C03_decode_encode_decode_partial (cfg : Cfg) (data : List U8) (c : Command)
    (h : Command.tryFrom cfg data = .ok c) (ht : ∀ a ∈ c.actions, a.isTx = false)
    (ho : ∀ a ∈ c.actions, a.isOther = false) :
    ∃ bytes, c.toBytes cfg = .ok bytes ∧ Command.tryFrom cfg bytes = .ok c := by
  obtain ⟨n, hf⟩ := Command.tryFrom_fromBytes h
  obtain ⟨p, q, -, hR, -, hind, -⟩ := Command.fromBytes_conv hf ht
  exact C01_command_roundtrip cfg c ⟨fun a ha => hR.wf a ha (ho a ha), hind⟩

/-- **C03** fails in length: an access profile behind a declared length of 0 is encoded one byte longer
than it was. -/
theorem C03_longer :
    ∃ c bytes, Command.tryFrom spec ([0x20, 0x20, 0, 0] ++ List.replicate 65 0) = .ok c ∧
      c.toBytes spec = .ok bytes ∧ 69 < bytes.length := by
  have h : ∃ c, Command.tryFrom spec ([0x20, 0x20, 0, 0] ++ List.replicate 65 0) = .ok c ∧
      ∃ bytes, c.toBytes spec = .ok bytes ∧ 69 < bytes.length := by
    refine ⟨⟨[.returnFileData ⟨⟨false, false⟩, ⟨32⟩, ⟨32, ⟨0⟩⟩, .accessProfile 0
      ⟨⟨.rfu0, .loRate, .pn9⟩, Vector.replicate 4 ⟨0, ⟨0, false⟩⟩, Vector.replicate 8 ⟨0, 0, 0, 0, 0⟩⟩⟩]⟩,
      by decide +kernel, [0x20, 0x20, 0, 64, 65] ++ List.replicate 65 0, by decide +kernel⟩
  obtain ⟨c, h1, b, h2⟩ := h
  exact ⟨c, b, h1, h2⟩

/-- **C03** fails for the status of an unknown interface, in every build: what is encoded again does
not decode any more. -/
theorem C03_other_status_violates (cfg : Cfg) :
    ∃ data c bytes, Command.tryFrom cfg data = .ok c ∧ c.toBytes cfg = .ok bytes ∧
      ∃ e, Command.tryFrom cfg bytes = .error e := by
  cases hu : cfg.unitPatConsumes with
  | false =>
    refine ⟨[0x62, 0x40, 0x02, 0x01, 0xBB],
      ⟨[.status ⟨.interface, ⟨34⟩, .interface ⟨.unknown, .other [0x01, 0xBB]⟩⟩]⟩,
      [0x62, 0x02, 0x01, 0xBB], ?_⟩
    rcases cfg with ⟨v, a, b, c, d⟩
    cases hu
    cases v <;> cases a <;> cases b <;> cases c <;>
      exact ⟨by decide +kernel, by decide +kernel, .fault .parse, by decide +kernel⟩
  | true =>
    refine ⟨[0x62, 0x10, 0x02, 0x01, 0xBB],
      ⟨[.status ⟨.interface, ⟨34⟩, .interface ⟨.unknown, .other [0x01, 0xBB]⟩⟩]⟩,
      [0x62, 0x02, 0x01, 0xBB], ?_⟩
    rcases cfg with ⟨v, a, b, c, d⟩
    cases hu
    cases v <;> cases a <;> cases b <;> cases c <;>
      exact ⟨by decide +kernel, by decide +kernel, .fault .parse, by decide +kernel⟩

/-- **C03** fails for a TX status (wizzilab). -/
theorem C03_tx_status_violates :
    ∃ data c bytes, Command.tryFrom wizzilab data = .ok c ∧ c.toBytes wizzilab = .ok bytes ∧
      ∃ e, Command.tryFrom wizzilab bytes = .error e :=
  ⟨[0x66, 0x00, 0x40, 0x00, 0x00],
    ⟨[.txStatus ⟨⟨0⟩, ⟨0x10, .other []⟩⟩, .nop ⟨⟨false, false⟩, ⟨0⟩⟩]⟩, [64, 152, 64, 0, 0],
    by decide +kernel, by decide +kernel, .fault .invalidParam, by decide +kernel⟩

/-- Reserved bits set and lengths not minimal: re-encoding gives a shorter, canonical form. -/
example : Command.tryFrom spec [0x74, 7, 0x01, 0x41, 0x40, 0x05, 0x80, 0x00, 0x06] =
    .ok ⟨[.requestTag ⟨false, ⟨52⟩, 7⟩, .readFileData ⟨⟨false, false⟩, ⟨1⟩, ⟨0x41, ⟨5⟩⟩, ⟨6⟩⟩]⟩ ∧
    (Command.mk [.requestTag ⟨false, ⟨52⟩, 7⟩, .readFileData ⟨⟨false, false⟩, ⟨1⟩, ⟨0x41, ⟨5⟩⟩, ⟨6⟩⟩]).toBytes
      spec = .ok [0x34, 7, 0x01, 0x41, 0x05, 0x06] := by decide +kernel

/-! ## C43 -/

/-- The bytes of variable size a query holds. -/
def Spec.queryPayload : Query → Nat
  | .nonVoid _ => 0
  | .comparisonWithZero q => q.mask.length
  | .comparisonWithValue q => q.mask.length + q.value.length
  | .comparisonWithOtherFile q => q.mask.length
  | .bitmapRangeComparison q => q.mask.length
  | .stringTokenSearch q => q.mask.length + q.value.length

/-- The bytes of variable size a file holds; three for each channel of a PHY status. -/
def Spec.filePayload : File → Nat
  | .other b => b.length
  | .phyStatus f => 3 * f.channelStatus.length
  | _ => 0

/-- The bytes of variable size an interface configuration holds (keys of LoRaWAN). -/
def Spec.configurationPayload : InterfaceConfiguration → Nat
  | .loRaWanABP c => c.networkSessionKey.length + c.appSessionKey.length
  | .loRaWanOTAA c => c.deviceEui.length + c.appEui.length + c.appKey.length
  | _ => 0

/-- The bytes of variable size an action holds in vectors of its own. -/
def Spec.payload : Action → Nat
  | .writeFileData o | .writeFileDataFlush o | .returnFileData o => Spec.filePayload o.data
  | .actionQuery o | .breakQuery o | .verifyChecksum o => Spec.queryPayload o.query
  | .status o => match o.status with
    | .interface o => match o.status with
      | .other b => b.length
      | _ => 0
    | .interfaceFinal o => match o.status with
      | .other b => b.length
      | _ => 0
    | _ => 0
  | .txStatus o => match o.status.status with
    | .other b => b.length
    | _ => 0
  | .forward o => Spec.configurationPayload o.configuration
  | _ => 0

/-- If the writer succeeds it puts out at least `n` bits. -/
def LenGe (w : W) (n : Nat) : Prop := ∀ bs, w = .ok bs → n ≤ bs.length

namespace LenGe

theorem zero {w : W} : LenGe w 0 := fun _ _ => Nat.zero_le _

theorem cons {w : W} {ws : List W} {n m : Nat} (h1 : LenGe w n) (h2 : LenGe (W.seq ws) m) :
    LenGe (W.seq (w :: ws)) (n + m) := by
  intro bs h
  obtain ⟨b, c, hb, hc, rfl⟩ := W.seq_cons_ok.1 h
  have := h1 b hb
  have := h2 c hc
  rw [List.length_append]; omega

theorem mono {w : W} {n m : Nat} (h : LenGe w n) (hmn : m ≤ n) : LenGe w m :=
  fun bs hb => Nat.le_trans hmn (h bs hb)

theorem uint {w n : Nat} {v : BitVec w} : LenGe (W.uint n v) n := by
  intro bs h
  unfold W.uint at h
  split at h
  · cases h
  · cases h; simp

theorem u8 {v : U8} : LenGe (W.u8 v) 8 := uint
theorem flag {b : Bool} : LenGe (W.flag b) 1 := by intro bs h; cases h; simp
theorem pad {n : Nat} : LenGe (W.pad n) n := by intro bs h; cases h; simp

theorem list {α : Type} {w : α → W} {k : Nat} (h : ∀ a, LenGe (w a) k) (l : List α) :
    LenGe (W.list w l) (k * l.length) := by
  unfold W.list
  induction l with
  | nil => exact zero
  | cons a l ih => exact (cons (h a) ih).mono (by rw [List.length_cons, Nat.mul_succ]; omega)

theorem bytes {l : List U8} : LenGe (W.list W.u8 l) (8 * l.length) := list (fun _ => u8) l

theorem length {l : Length} : LenGe l.write 8 := by
  unfold Length.write
  exact (cons uint (cons uint zero)).mono (by omega)

theorem lengthPrefixed {w : W} {n : Nat} (h : LenGe w n) : LenGe (writeLengthPrefixed w) (8 + n) := by
  unfold writeLengthPrefixed
  split
  · intro bs h; cases h
  · rename_i bs
    refine (cons length (cons bytes zero)).mono ?_
    have := h bs rfl
    rw [packBits_length]
    omega

end LenGe

/-- Lower bound of a sequence of writers: what is not known is counted as nothing. -/
macro "lenge" : tactic => `(tactic| (
  apply LenGe.mono
  case h =>
    repeat' (first
      | with_reducible exact LenGe.bytes
      | with_reducible exact LenGe.uint
      | with_reducible exact LenGe.u8
      | with_reducible exact LenGe.flag
      | with_reducible exact LenGe.pad
      | with_reducible apply LenGe.cons
      | with_reducible apply LenGe.lengthPrefixed
      | with_reducible exact LenGe.zero)))

theorem Query.write_payload (q : Query) : LenGe q.write (8 * Spec.queryPayload q) := by
  cases q
  all_goals
    simp only [Query.write, NonVoid.write, ComparisonWithZero.write, ComparisonWithValue.write,
      ComparisonWithOtherFile.write, BitmapRangeComparison.write, StringTokenSearch.write,
      Spec.queryPayload]
    lenge
    omega

theorem ChannelStatus.write_ge (c : ChannelStatus) : LenGe c.write 24 := by
  simp only [ChannelStatus.write, ChannelStatusIdentifier.write, ChannelBand.write, Bandwidth.write]
  lenge
  omega

theorem File.write_payload (cfg : Cfg) (f : File) : LenGe (f.write cfg) (8 * Spec.filePayload f) := by
  cases f with
  | other b => exact LenGe.bytes
  | phyStatus f =>
    simp only [File.write, PhyStatus.write, Spec.filePayload]
    exact (LenGe.cons LenGe.uint (LenGe.cons LenGe.uint (LenGe.cons LenGe.uint
      (LenGe.cons LenGe.uint (LenGe.cons LenGe.u8
      (LenGe.cons (LenGe.list ChannelStatus.write_ge _) LenGe.zero)))))).mono (by omega)
  | _ => exact LenGe.zero

theorem Op.FileData.write_payload (cfg : Cfg) (op : OpCode) (o : Op.FileData) :
    LenGe (o.write cfg op) (8 + 8 * Spec.filePayload o.data + o.data.slack) := by
  have hs : o.data.slack ≤ 8 := by
    cases o.data with
    | phyStatus f => simp only [File.slack]; split <;> omega
    | _ => simp [File.slack]
  simp only [Op.FileData.write, ActionHeader.write, OpCode.write, FileOffset.write]
  exact (LenGe.cons (LenGe.cons LenGe.flag (LenGe.cons LenGe.flag LenGe.zero)) (LenGe.cons LenGe.uint
    (LenGe.cons (LenGe.cons LenGe.u8 LenGe.zero) (LenGe.cons
    (LenGe.lengthPrefixed (File.write_payload cfg o.data)) LenGe.zero)))).mono (by omega)

theorem Action.write_payload (cfg : Cfg) (a : Action) :
    LenGe (a.write cfg) (8 + 8 * Spec.payload a + a.slack) ∨
      (Spec.payload a = 0 ∧ a.slack = 0) := by
  have hquery : ∀ (h : ActionHeader) (op : OpCode) (q : Query),
      LenGe (W.seq [h.write, op.write, q.write]) (8 + 8 * Spec.queryPayload q) := by
    intro h op q
    simp only [ActionHeader.write, OpCode.write]
    exact (LenGe.cons (LenGe.cons LenGe.flag (LenGe.cons LenGe.flag LenGe.zero)) (LenGe.cons LenGe.uint
      (LenGe.cons q.write_payload LenGe.zero))).mono (by omega)
  cases a with
  | writeFileData o => exact .inl (Op.FileData.write_payload _ _ o)
  | writeFileDataFlush o => exact .inl (Op.FileData.write_payload _ _ o)
  | returnFileData o => exact .inl (Op.FileData.write_payload _ _ o)
  | actionQuery o => exact .inl (hquery _ _ o.query)
  | breakQuery o => exact .inl (hquery _ _ o.query)
  | verifyChecksum o => exact .inl (hquery _ _ o.query)
  | status o =>
    rcases o with ⟨ty, op, s⟩
    cases s with
    | action s => exact .inr ⟨rfl, rfl⟩
    | interface o =>
      rcases o with ⟨t, st⟩
      cases st with
      | other b =>
        left
        simp only [write, Op.StatusOperand.write, Op.StatusType.write, OpCode.write, Op.Status.write,
          Op.InterfaceStatusOperation.write, InterfaceStatus.write, Spec.payload, slack]
        lenge
        omega
      | _ => exact .inr ⟨rfl, rfl⟩
    | interfaceFinal o =>
      rcases o with ⟨t, st⟩
      cases st with
      | other b =>
        left
        simp only [write, Op.StatusOperand.write, Op.StatusType.write, OpCode.write, Op.Status.write,
          Op.InterfaceFinalStatusOperation.write, InterfaceFinalStatus.write, Spec.payload, slack]
        lenge
        omega
      | _ => exact .inr ⟨rfl, rfl⟩
  | txStatus o =>
    rcases o with ⟨op, i, st⟩
    cases st with
    | other b =>
      left
      simp only [write, OpCode.write, Op.TxStatusOperation.write, Op.InterfaceTxStatusOperation.write,
        InterfaceTxStatus.write, Spec.payload, slack]
      lenge
      omega
    | _ => exact .inr ⟨rfl, rfl⟩
  | forward o =>
    rcases o with ⟨r, op, c⟩
    cases c with
    | loRaWanABP c =>
      left
      simp only [write, Op.Forward.write, OpCode.write, InterfaceConfiguration.write,
        LoRaWANABPInterfaceConfiguration.write, Spec.payload, Spec.configurationPayload, slack]
      lenge
      omega
    | loRaWanOTAA c =>
      left
      simp only [write, Op.Forward.write, OpCode.write, InterfaceConfiguration.write,
        LoRaWANOTAAInterfaceConfiguration.write, Spec.payload, Spec.configurationPayload, slack]
      lenge
      omega
    | _ => exact .inr ⟨rfl, rfl⟩
  | _ => exact .inr ⟨rfl, rfl⟩

/-- **C43** A decoded command has at most as many actions and bytes of payload, taken together, as
the input has bytes. -/
theorem C43_size_bounded (cfg : Cfg) (data : List U8) (rest : Rest) (c : Command)
    (h : Command.fromBytes cfg (data, 0) = .ok (rest, c)) :
    c.actions.length + (c.actions.map Spec.payload).sum ≤ data.length := by
  obtain ⟨ps, hps, hd, hsum⟩ := Command.fromBytes_decoded h
  have key : 8 * ((ps.map Prod.fst).length + ((ps.map Prod.fst).map Spec.payload).sum) ≤
      (ps.map Prod.snd).sum := by
    clear hsum hps
    induction ps with
    | nil => simp
    | cons p ps ih =>
      have hp := hd p (by simp)
      have ih := ih fun q hq => hd q (by simp [hq])
      simp only [List.map_cons, List.length_cons, List.sum_cons] at ih ⊢
      have h1 : 8 + 8 * Spec.payload p.1 ≤ p.2 := by
        obtain ⟨bs, hbs, hlen⟩ := hp.len
        have := hp.pos
        rcases Action.write_payload cfg p.1 with h | ⟨h, -⟩
        · have := h bs hbs; omega
        · omega
      omega
  rw [hps]
  omega

example : Command.fromBytes spec ([180, 7, 0x44, 0x42, 0, 3, 0xAA, 0xBB, 0xCC], 0) =
    .ok (([], 0), ⟨[tag, writeData]⟩) ∧
    2 + ([tag, writeData].map Spec.payload).sum = 5 := by decide +kernel

#print axioms C03_reencodes
#print axioms C03_decode_encode_decode_partial
#print axioms C03_longer
#print axioms C03_other_status_violates
#print axioms C03_tx_status_violates
#print axioms C43_size_bounded

end Dash7
