import Verif.Lemmas.Hope4

/-!
# Exactly which actions and types read on their own more input can complete
-/

namespace Dash7

/-- Running out of input can be cured, wherever the reader ends. -/
def Curable {α : Type} (p : P α) (X : List Bool → Prop) : Prop :=
  ∀ s, 8 ∣ s.length → p.eval s = .error .incomplete → X s ∨ ∃ t a, p.eval (s ++ t) = .ok (a, [])

theorem HopeG.cure {α : Type} {j : Nat} {p : P α} {G : α → Prop} (h : HopeG 0 j p G) (X : List Bool → Prop) :
    Curable p X := by
  intro s hs he
  obtain ⟨t, a, -, ha⟩ := h.more s (by omega) he
  exact .inr ⟨t, a, ha⟩

theorem HopeX.cure {α : Type} {p : P α} {X : List Bool → Prop} (h : HopeX 0 p X) : Curable p X :=
  fun s hs he => h.more s (by omega) he

/-- The types that nothing completes. -/
def Item.ShutBits (cfg : Cfg) (i : Item) (s : List Bool) : Prop :=
  (i = .firmwareVersion ∧ Spec.LostVersion s) ∨ (i = .interfaceStatusOperation ∧ (byteAt 0 s = 2 ∨ byteAt 0 s = 3)) ∨
    (i = .netControl ∧ cfg.variant ≠ .wizzilab ∧ s.length = 8 ∧ bitsNat (s.drop 5) ≥ 4)

/-- Three of the four bits of a security method. -/
theorem NlsMethod.hope5 (cfg : Cfg) (hv : cfg.variant ≠ .wizzilab) :
    HopeX 5 (NlsMethod.read cfg) fun s => s.length = 3 ∧ 4 ≤ bitsNat s := by
  have hr : NlsMethod.read cfg = P.enum 4 NlsMethod.ofId := by
    unfold NlsMethod.read NlsMethod.width
    cases h : cfg.variant <;> first | rfl | exact absurd h hv
  rw [hr]
  refine ⟨⟨[false, false, false, false], .none, rfl⟩, fun s hs he => ?_⟩
  have hl : s.length < 4 := Nat.lt_of_not_le fun h => by
    rcases Enough.enum (ofId := NlsMethod.ofId) s h with ⟨f, hf⟩ | ⟨a, s', ha, -⟩
    · rw [hf] at he; cases he
    · rw [ha] at he; cases he
  match s, hs, hl with
  | [], hs, _ => simp at hs
  | [_], hs, _ => simp at hs
  | [_, _], hs, _ => simp at hs
  | [a, b, c], _, _ =>
    cases a
    · right
      cases b <;> cases c <;> exact ⟨[false], _, rfl⟩
    · left
      cases b <;> cases c <;> decide
  | _ :: _ :: _ :: _ :: _, _, hl => simp at hl; omega

theorem Net.Control.hopeExact (cfg : Cfg) (hv : cfg.variant ≠ .wizzilab) :
    HopeX 0 (Control.read cfg) fun s => s.length = 8 ∧ 4 ≤ bitsNat (s.drop 5) := by
  unfold Control.read AddressType.read
  simp only [P.bind_eq]
  refine HopeX.mono (HopeX.next Hope.flag fun _ => HopeX.next Hope.flag fun _ =>
    HopeX.next (Hope.enum (k := 2) (n := 2) (by decide) 0 (by decide) (by decide)) fun _ => HopeX.next Hope.pad fun _ =>
    HopeX.map (NlsMethod.hope5 cfg hv) _) ?_
  rintro s ⟨_, s1, h1, _, s2, h2, _, s3, h3, _, s4, h4, hl, hb⟩
  obtain ⟨a, rfl, ha⟩ := took_len (Post.flag.mono fun _ _ h => h.1) h1
  obtain ⟨b, rfl, hb'⟩ := took_len (Post.flag.mono fun _ _ h => h.1) h2
  obtain ⟨c, rfl, hc⟩ := took_len (Post.enum.mono fun _ _ h => h.1) h3
  obtain ⟨d, rfl, hd⟩ := took_len (Post.pad.mono fun _ _ h => h.1) h4
  refine ⟨by simp only [List.length_append]; omega, ?_⟩
  rw [show a ++ (b ++ (c ++ (d ++ s4))) = (a ++ b ++ c ++ d) ++ s4 by simp,
    show 5 = (a ++ b ++ c ++ d).length by simp only [List.length_append]; omega, List.drop_left]
  exact hb

/-- A reader for which the fields in turn show it. -/
macro "item" j:num : tactic => `(tactic| (refine HopeG.cure (j := $j) (G := fun _ => True) ?_ _; hope))

theorem Item.cure (cfg : Cfg) (i : Item) : Curable (i.read cfg) (i.ShutBits cfg) := by
  cases i <;> unfold Item.read
  case bandwidth => exact HopeG.cure (Hope.enum (by decide) 0 (by decide) (by decide)) _
  case channelBand => exact HopeG.cure (Hope.enum (by decide) 0 (by decide) (by decide)) _
  case channelClass => exact HopeG.cure (Hope.enum (by decide) 0 (by decide) (by decide)) _
  case channelCoding => exact HopeG.cure (Hope.enum (by decide) 0 (by decide) (by decide)) _
  case csmaCaMode => exact HopeG.cure (Hope.enum (by decide) 0 (by decide) (by decide)) _
  case channelHeader => exact HopeG.cure ChannelHeader.hope _
  case channel => exact HopeG.cure Channel.hope _
  case channelStatusIdentifier => exact HopeG.cure ChannelStatusIdentifier.hope _
  case channelStatus => exact HopeG.cure ChannelStatus.hope _
  case subBand => exact HopeG.cure SubBand.hope _
  case subProfile => exact HopeG.cure SubProfile.hope _
  case accessClass => exact HopeG.cure AccessClass.hope _
  case accessProfile => exact HopeG.cure AccessProfile.hope _
  case groupCondition => exact HopeG.cure (Hope.enum (by decide) 0 (by decide) (by decide)) _
  case addressType => exact HopeG.cure (Hope.enum (by decide) 0 (by decide) (by decide)) _
  case nlsMethod =>
    cases h : cfg.variant <;> exact HopeG.cure (Hope.enum (by rw [NlsMethod.width, h]; decide) 0
      (by rw [NlsMethod.width, h]; decide) (by decide)) _
  case addressee => exact HopeG.cure (Addressee.hope cfg) _
  case varInt => exact HopeG.cure VarInt.hope _
  case length => exact HopeG.cure Length.hope _
  case fileOffset => exact HopeG.cure FileOffset.hope _
  case actionCondition => exact HopeG.cure (Hope.enum (by decide) 0 (by decide) (by decide)) _
  case storageClass => exact HopeG.cure (Hope.enum (by decide) 0 (by decide) (by decide)) _
  case userPermissions =>
    unfold Data.UserPermissions.reader
    item 3
  case filePermissions => exact HopeG.cure Data.FilePermissions.hope _
  case fileProperties => exact HopeG.cure Data.FileProperties.hope _
  case fileHeader => exact HopeG.cure Data.FileHeader.hope _
  case dllConfig => exact HopeG.cure DllConfig.hope _
  case dllStatus => exact HopeG.cure DllStatus.hope _
  case engineeringModeMethod => exact HopeG.cure (Hope.enum (by decide) 0 (by decide) (by decide)) _
  case engineeringMode => exact HopeG.cure EngineeringMode.hope _
  case factorySettings => exact HopeG.cure FactorySettings.hope _
  case firmwareVersion =>
    exact fun s hs he => ((HopeX.self firmware_can).cure s hs he).imp_left fun h => .inl ⟨rfl, lostVersion_of h.1 h.2⟩
  case phyStatus => exact HopeG.cure PhyStatus.hope _
  case securityKey => exact HopeG.cure (SecurityKey.hope cfg) _
  case file => exact HopeG.cure (File.hope cfg .other 0 (by decide)) _
  case responseMode => exact HopeG.cure (Hope.enum (by decide) 0 (by decide) (by decide)) _
  case retryMode => exact HopeG.cure (Hope.enum (by decide) 0 (by decide) (by decide)) _
  case qos => exact HopeG.cure QoS.hope _
  case dash7InterfaceStatus => exact HopeG.cure (Dash7InterfaceStatus.hope cfg) _
  case finalStatusCode => exact HopeG.cure InterfaceFinalStatusCode.hope _
  case dash7InterfaceTxStatus => exact HopeG.cure (Dash7InterfaceTxStatus.hope cfg) _
  case dash7InterfaceConfiguration => exact HopeG.cure (Dash7InterfaceConfiguration.hope cfg) _
  case loRaWAN => exact HopeG.cure LoRaWANInterfaceConfiguration.hope _
  case loRaWANOTAA => exact HopeG.cure LoRaWANOTAAInterfaceConfiguration.hope _
  case loRaWANABP => exact HopeG.cure (LoRaWANABPInterfaceConfiguration.hope cfg) _
  case interfaceConfiguration => exact HopeG.cure (InterfaceConfiguration.hope cfg) _
  case indirectInterface => exact HopeG.cure (IndirectInterface.hope cfg) _
  case arithmeticComparisonType => exact HopeG.cure (Hope.enum (by decide) 0 (by decide) (by decide)) _
  case arithmeticQueryParams =>
    unfold ArithmeticQueryParams.read ArithmeticComparisonType.read
    item 4
  case rangeComparisonType => exact HopeG.cure (Hope.enum (by decide) 0 (by decide) (by decide)) _
  case rangeQueryParams =>
    unfold RangeQueryParams.read RangeComparisonType.read
    item 4
  case query => exact HopeG.cure Query.hope _
  case nonVoid => unfold NonVoid.read FileOffset.read; item 5
  case comparisonWithZero =>
    unfold ComparisonWithZero.read ArithmeticQueryParams.read ArithmeticComparisonType.read FileOffset.read; item 5
  case comparisonWithValue =>
    unfold ComparisonWithValue.read ArithmeticQueryParams.read ArithmeticComparisonType.read FileOffset.read; item 5
  case comparisonWithOtherFile =>
    unfold ComparisonWithOtherFile.read ArithmeticQueryParams.read ArithmeticComparisonType.read FileOffset.read; item 5
  case bitmapRangeComparison =>
    unfold BitmapRangeComparison.read RangeQueryParams.read RangeComparisonType.read FileOffset.read; item 5
  case stringTokenSearch => unfold StringTokenSearch.read FileOffset.read; item 5
  case opCode => unfold OpCode.read; item 6
  case statusCode => unfold StatusCode.read; item 0
  case actionStatus => exact HopeG.cure ActionStatus.hope _
  case permission => exact HopeG.cure Permission.hope _
  case permissionLevel => exact HopeG.cure (Hope.enum (by decide) 0 (by decide) (by decide)) _
  case actionHeader => exact HopeG.cure ActionHeader.hope _
  case statusType => exact HopeG.cure (Hope.enum (by decide) 0 (by decide) (by decide)) _
  case status => exact fun s hs he => .inr (((Op.Status.hope cfg .action (by intro h; cases h)).cure s hs he).resolve_left
      fun h => by cases h.1)
  case interfaceStatusOperation =>
    exact fun s hs he => ((Op.InterfaceStatusOperation.hope cfg).cure s hs he).imp_left fun h => .inr (.inl ⟨rfl, h⟩)
  case interfaceFinalStatusOperation => exact HopeG.cure Op.InterfaceFinalStatusOperation.hope _
  case interfaceTxStatusOperation => exact HopeG.cure (Op.InterfaceTxStatusOperation.hope cfg) _
  case responseTagHeader => unfold Op.ResponseTagHeader.read; item 2
  case chunkStep => exact HopeG.cure (Hope.enum (by decide) 0 (by decide) (by decide)) _
  case logicOp => exact HopeG.cure (Hope.enum (by decide) 0 (by decide) (by decide)) _
  case indirectForwardHeader => exact HopeG.cure Op.IndirectForwardHeader.hope _
  case forwardHeader => unfold Op.ForwardHeader.read; item 2
  case requestTagHeader => unfold Op.RequestTagHeader.read; item 2
  case txStatusType => exact HopeG.cure (Hope.enum (by decide) 1 (by decide) (by decide)) _
  case transControl => unfold Trans.Control.read; item 7
  case ackTemplate => unfold Trans.AckTemplate.read; item 0
  case netControl =>
    by_cases h : cfg.variant = .wizzilab
    · unfold Net.Control.read AddressType.read NlsMethod.read NlsMethod.width
      rw [h]
      item 0
    · exact fun s hs he => ((Net.Control.hopeExact cfg h).cure s hs he).imp_left fun hx => .inr (.inr ⟨rfl, h, hx⟩)
  case hoppingControl => unfold Net.HoppingControl.read AddressType.read; item 0
  case foregroundFrameControl => unfold ForegroundFrameControl.read AddressType.read; item 0
  case backgroundFrameControl => unfold BackgroundFrameControl.read AddressType.read; item 0
  case backgroundFrame => unfold BackgroundFrame.read BackgroundFrameControl.read AddressType.read; item 0

/-! ## Actions -/

/-- The actions that nothing completes. -/
def Shut (cfg : Cfg) (op : Nat) (s : List Bool) : Prop :=
  (op = 38 ∧ cfg.variant = .wizzilab ∧ Spec.LostTxStatus s) ∨ ((op = 4 ∨ op = 5 ∨ op = 32) ∧ Spec.LostFileData s) ∨
    (op = 34 ∧ bitsNat (s.take 2) = 1 ∧ (byteAt 8 s = 2 ∨ byteAt 8 s = 3))

theorem Action.dispatch_hope (cfg : Cfg) (code : OpCode) {s : List Bool} (hs : 8 ∣ s.length)
    (he : (dispatch cfg code).eval s = .error .incomplete) :
    Shut cfg code.code.toNat s ∨ ∃ t a, (dispatch cfg code).eval (s ++ t) = .ok (a, []) := by
  have key : ∀ {α : Type} {p : P α} {f : α → Action} {X : List Bool → Prop}, HopeX 0 p X →
      (p.bind fun a => P.pure (f a)).eval s = .error .incomplete →
      X s ∨ ∃ t a, (p.bind fun a => P.pure (f a)).eval (s ++ t) = .ok (a, []) :=
    fun h he => (HopeX.map h _).more s (by omega) he
  have key' : ∀ {α : Type} {p : P α} {f : α → Action} {X : Prop}, Hope 0 0 p →
      (p.bind fun a => P.pure (f a)).eval s = .error .incomplete →
      X ∨ ∃ t a, (p.bind fun a => P.pure (f a)).eval (s ++ t) = .ok (a, []) :=
    fun h he => (key (HopeG.x h fun _ => False) he).imp_left False.elim
  unfold dispatch at he ⊢
  split at he
  · exact key' Op.Nop.hope he
  · exact key' Op.ReadFileData.hope he
  · exact key' Op.FileId.hope he
  · rename_i hc
    exact (key (Op.FileData.hopeExact cfg) he).imp_left fun h => .inr (.inl ⟨by rw [hc]; decide, h⟩)
  · rename_i hc
    exact (key (Op.FileData.hopeExact cfg) he).imp_left fun h => .inr (.inl ⟨by rw [hc]; decide, h⟩)
  · exact key' Op.FileProperties.hope he
  · exact key' Op.ActionQuery.hope he
  · exact key' Op.ActionQuery.hope he
  · exact key' Op.PermissionRequest.hope he
  · exact key' Op.ActionQuery.hope he
  · exact key' Op.FileId.hope he
  · exact key' Op.FileProperties.hope he
  · exact key' Op.FileId.hope he
  · exact key' Op.FileId.hope he
  · exact key' Op.FileId.hope he
  · exact key' Op.CopyFile.hope he
  · exact key' Op.FileId.hope he
  · rename_i hc
    exact (key (Op.FileData.hopeExact cfg) he).imp_left fun h => .inr (.inl ⟨by rw [hc]; decide, h⟩)
  · exact key' Op.FileProperties.hope he
  · rename_i hc
    exact (key (Op.StatusOperand.hope cfg) he).imp_left fun h => .inr (.inr ⟨hc, h⟩)
  · exact key' Op.ResponseTag.hope he
  · rename_i hc
    split at he
    · rename_i hv
      exact (key (Op.TxStatusOperation.hopeExact cfg hv) he).imp_left fun h => .inl ⟨hc, hv, h⟩
    · cases he
  · exact key' Op.Chunk.hope he
  · exact key' Op.Logic.hope he
  · exact key' (Op.Forward.hope cfg) he
  · exact key' (Op.IndirectForward.hope cfg) he
  · exact key' Op.RequestTag.hope he
  · exact key' Op.Extension.hope he
  · cases he

theorem Action.decode_hope (cfg : Cfg) {s : List Bool} (hs : 8 ∣ s.length)
    (he : Action.decode cfg s = .error .incomplete) :
    (8 ≤ s.length ∧ Shut cfg (opAt 2 s).code.toNat s) ∨ ∃ t a, Action.decode cfg (s ++ t) = .ok (a, []) := by
  unfold Action.decode at he ⊢
  split at he
  · rename_i h8
    rcases Action.dispatch_hope cfg _ hs he with h | ⟨t, a, h⟩
    · exact .inl ⟨h8, h⟩
    · refine .inr ⟨t, a, ?_⟩
      have hop : opAt 2 (s ++ t) = opAt 2 s := by
        unfold opAt
        rw [List.drop_append_of_le_length (by omega), List.take_append_of_le_length (by simp; omega)]
      rw [if_pos (by simp; omega), hop]
      exact h
  · have : s = [] := List.length_eq_zero_iff.1 (by omega)
    subst this
    exact .inr ⟨List.replicate 8 false, .nop ⟨⟨false, false⟩, ⟨0⟩⟩, by cases cfg; rfl⟩

theorem byteAt_zero (b : U8) (t : List U8) : byteAt 0 (bytesBits (b :: t)) = b.toNat := by
  have h1 : ∀ b : U8, bitsNat (natBits 8 b.toNat) = b.toNat := fun b => bitsNat_natBits_of_lt b.isLt
  unfold byteAt
  rw [List.drop_zero, show bytesBits (b :: t) = natBits 8 b.toNat ++ bytesBits t from rfl,
    List.take_append_of_le_length (by simp), List.take_of_length_le (by simp)]
  exact h1 b

theorem byteAt_one (b c : U8) (t : List U8) : byteAt 8 (bytesBits (b :: c :: t)) = c.toNat := by
  rw [← byteAt_zero c t]
  unfold byteAt
  rw [show bytesBits (b :: c :: t) = natBits 8 b.toNat ++ bytesBits (c :: t) from rfl]
  rw [List.drop_append_of_le_length (by simp), List.drop_eq_nil_of_le (by simp), List.nil_append, List.drop_zero]

theorem topBits (b : U8) (t : List U8) : bitsNat ((bytesBits (b :: t)).take 2) = b.toNat / 64 := by
  have h1 : ∀ b : U8, bitsNat ((natBits 8 b.toNat).take 2) = b.toNat / 64 := by decide +kernel
  rw [show bytesBits (b :: t) = natBits 8 b.toNat ++ bytesBits t from rfl,
    List.take_append_of_le_length (by simp)]
  exact h1 b

theorem Action.decode_tx {cfg : Cfg} {s s' : List Bool} {a : Action} (h : Action.decode cfg s = .ok (a, s'))
    (ht : ¬ a.isTx = false) : (opAt 2 s).code.toNat = 38 ∧ cfg.variant = .wizzilab := by
  obtain ⟨-, -, -, hop, -, hdis, -⟩ := Action.decode_ok h
  have h38 : (opAt 2 s).code.toNat = 38 := by
    rw [← hop]
    cases a <;> first | rfl | exact absurd rfl ht
  refine ⟨h38, ?_⟩
  unfold dispatch at hdis
  rw [h38] at hdis
  split at hdis <;> first | (exfalso; omega) | skip
  · split at hdis
    · assumption
    · cases hdis
  · cases hdis

/-- The action begun can be completed by whole bytes, but for the two bits behind a TX state. -/
theorem Action.decode_more (cfg : Cfg) {data : List U8} (he : Action.decode cfg (bytesBits data) = .error .incomplete) :
    (data ≠ [] ∧ Shut cfg (opAt 2 (bytesBits data)).code.toNat (bytesBits data)) ∨
      ∃ more a c, Action.decode cfg (bytesBits (data ++ more)) = .ok (a, c) ∧ c.length = if a.isTx then 2 else 0 := by
  rcases Action.decode_hope cfg (by rw [bytesBits_length]; omega) he with ⟨h8, h⟩ | ⟨t, a, h⟩
  · refine .inl ⟨?_, h⟩
    rintro rfl
    simp at h8
  · right
    obtain ⟨c, hc, hdec, -, -, -, hext⟩ := Action.decode_ok h
    rw [List.append_nil] at hc
    subst hc
    rw [List.length_append, bytesBits_length] at hdec
    cases ht : a.isTx with
    | false =>
      have h8 := hdec.dvd ht
      refine ⟨packBits t, a, [], ?_, by rw [ht]; rfl⟩
      rw [bytesBits_append, bytesBits_packBits t (by omega)]
      exact h
    | true =>
      have h8 := hdec.dvd' ht
      refine ⟨packBits (t ++ [false, false]), a, [false, false], ?_, by rw [ht]; rfl⟩
      rw [bytesBits_append, bytesBits_packBits _ (by rw [List.length_append, List.length_cons, List.length_singleton]; omega),
        ← List.append_assoc]
      exact hext _

theorem byteAt_extend {n : Nat} {s t : List Bool} (h : n + 8 ≤ s.length) : byteAt n (s ++ t) = byteAt n s := by
  unfold byteAt
  rw [List.drop_append_of_le_length (by omega), List.take_append_of_le_length (by rw [List.length_drop]; omega)]

theorem Op.InterfaceStatusOperation.lost (cfg : Cfg) {s s' : List Bool} {o : InterfaceStatusOperation}
    (hb : byteAt 0 s = 2 ∨ byteAt 0 s = 3) : (InterfaceStatusOperation.read cfg).eval s ≠ .ok (o, s') := by
  intro he
  unfold InterfaceStatusOperation.read at he
  simp only [P.bind_eq] at he
  obtain ⟨b, s1, h1, he⟩ := P.bind_inv he
  obtain ⟨l, s2, -, he⟩ := P.bind_inv he
  obtain ⟨x, s3, h3, -⟩ := P.bind_inv he
  rw [← u8_eval h1] at hb
  rcases hb with hb | hb
  · rw [show b = 2 from BitVec.eq_of_toNat_eq hb] at h3
    cases h3
  · rw [show b = 3 from BitVec.eq_of_toNat_eq hb] at h3
    cases h3

theorem Op.StatusOperand.lost (cfg : Cfg) {s t s' : List Bool} {o : StatusOperand} (h0 : 8 ≤ s.length)
    (h8 : 8 ∣ s.length) (ht : bitsNat (s.take 2) = 1) (hb : byteAt 8 s = 2 ∨ byteAt 8 s = 3)
    (he : (StatusOperand.read cfg).eval (s ++ t) = .ok (o, s')) : False := by
  have hl : 16 ≤ s.length := by
    rcases Nat.lt_or_ge s.length 16 with h | h
    · have : s.drop 8 = [] := List.drop_eq_nil_of_le (by omega)
      unfold byteAt at hb
      rw [this] at hb
      exact absurd hb (by decide)
    · exact h
  unfold StatusOperand.read StatusType.read P.enum at he
  simp only [P.bind_eq, Ign.bind_assoc] at he
  obtain ⟨u, s1, h1, he⟩ := P.bind_inv he
  obtain ⟨x, hx, hxl, hxv⟩ := (Fits.uint (show 2 ≤ 8 by decide)).took h1
  have hx2 : x = s.take 2 := by
    have := congrArg (List.take 2) hx
    rwa [← hxl, List.take_left, hxl, List.take_append_of_le_length (by omega), eq_comm] at this
  rw [Form.value_eq, hx2, ht] at hxv
  rw [show u = 1 from BitVec.eq_of_toNat_eq hxv.symm] at he
  rw [show StatusType.ofId 1 = some .interface from rfl] at he
  dsimp only at he
  rw [P.pure_bind] at he
  obtain ⟨oc, s2, h2, he⟩ := P.bind_inv he
  obtain ⟨st, s3, h3, -⟩ := P.bind_inv he
  unfold Status.read at h3
  obtain ⟨i, s4, h4, -⟩ := P.bind_inv h3
  have hs2 : s2 = (s ++ t).drop 8 := by
    rw [(OpCode.post.mono fun _ _ h => h.2).drops h2, hx, show 8 = 2 + 6 from rfl, ← List.drop_drop, ← hxl, List.drop_left]
  refine InterfaceStatusOperation.lost cfg ?_ h4
  rw [← byteAt_extend (t := t) (by omega)] at hb
  rw [hs2]
  unfold byteAt at hb ⊢
  rwa [List.drop_zero]

theorem Net.Control.lost (cfg : Cfg) (hv : cfg.variant ≠ .wizzilab) {s t s' : List Bool} {o : Control}
    (hl : s.length = 8) (h4 : 4 ≤ bitsNat (s.drop 5)) : (Control.read cfg).eval (s ++ t) ≠ .ok (o, s') := by
  intro he
  unfold Control.read AddressType.read at he
  simp only [P.bind_eq] at he
  obtain ⟨_, s1, h1, he⟩ := P.bind_inv he
  obtain ⟨_, s2, h2, he⟩ := P.bind_inv he
  obtain ⟨_, s3, h3, he⟩ := P.bind_inv he
  obtain ⟨_, s4, h5, he⟩ := P.bind_inv he
  obtain ⟨m, s5, h6, -⟩ := P.bind_inv he
  have hs4 : s4 = s.drop 5 ++ t := by
    rw [(Post.pad.mono fun _ _ h => h.1).drops h5, (Post.enum.mono fun _ _ h => h.1).drops h3,
      (Post.flag.mono fun _ _ h => h.1).drops h2, (Post.flag.mono fun _ _ h => h.1).drops h1, List.drop_drop,
      List.drop_drop, List.drop_drop, List.drop_append_of_le_length (by omega)]
  have hr : NlsMethod.read cfg = P.enum 4 NlsMethod.ofId := by
    unfold NlsMethod.read NlsMethod.width
    cases h : cfg.variant <;> first | rfl | exact absurd h hv
  rw [hr] at h6
  unfold P.enum at h6
  obtain ⟨u, s6, h7, h8⟩ := P.bind_inv h6
  obtain ⟨x, hx, hxl, hxv⟩ := (Fits.uint (show 4 ≤ 8 by decide)).took h7
  rw [hs4] at hx
  rw [Form.value_eq] at hxv
  have hd : (s.drop 5).length = 3 := by rw [List.length_drop]; omega
  have hu : 8 ≤ u.toNat := by
    rw [← hxv]
    generalize s.drop 5 = y at hx h4 hd
    match x, hxl, y, hd with
    | [x0, x1, x2, x3], _, [y0, y1, y2], _ =>
      simp only [List.cons_append, List.nil_append, List.cons.injEq] at hx
      obtain ⟨rfl, rfl, rfl, -⟩ := hx
      exact (by decide : ∀ a b c d : Bool, 4 ≤ bitsNat [a, b, c] → 8 ≤ bitsNat [a, b, c, d]) _ _ _ _ h4
  have : ∀ u : U8, 8 ≤ u.toNat → NlsMethod.ofId u = none := by decide +kernel
  rw [this u hu] at h8
  cases h8

/-- Nothing completes the operand begun. -/
theorem Action.dispatch_lost {cfg : Cfg} {code : OpCode} {s : List Bool} (hs : 8 ≤ s.length) (h8 : 8 ∣ s.length)
    (h : Shut cfg code.code.toNat s) (t s' : List Bool) (a : Action) :
    (dispatch cfg code).eval (s ++ t) ≠ .ok (a, s') := by
  intro hd
  rcases h with ⟨h, hv, hx⟩ | ⟨h, hx⟩ | ⟨h, hb, hx⟩
  · unfold dispatch at hd
    rw [h] at hd
    simp only [hv] at hd
    obtain ⟨o, s1, h1, -⟩ := P.bind_inv hd
    exact Op.TxStatusOperation.lost cfg hx _ _ _ h1
  · unfold dispatch at hd
    rcases h with h | h | h <;> rw [h] at hd <;> obtain ⟨o, s1, h1, -⟩ := P.bind_inv hd <;>
      exact Op.FileData.lost cfg hx _ _ _ h1
  · unfold dispatch at hd
    rw [h] at hd
    obtain ⟨o, s1, h1, -⟩ := P.bind_inv hd
    exact Op.StatusOperand.lost cfg (by omega) h8 hb hx h1

/-- Nothing completes the action begun. -/
theorem Action.decode_lost {cfg : Cfg} {s : List Bool} (hs : 8 ≤ s.length) (h8 : 8 ∣ s.length) (h : Shut cfg (opAt 2 s).code.toNat s)
    (t s' : List Bool) (a : Action) : Action.decode cfg (s ++ t) ≠ .ok (a, s') := by
  intro he
  obtain ⟨-, -, -, -, -, hd, -⟩ := Action.decode_ok he
  have hop : opAt 2 (s ++ t) = opAt 2 s := by
    unfold opAt
    rw [List.drop_append_of_le_length (by omega), List.take_append_of_le_length (by simp; omega)]
  rw [hop] at hd
  exact Action.dispatch_lost hs h8 h t s' a hd

/-! ## Commands -/

/-- Where the loop ran out of input: actions were read, and another one was begun. -/
theorem Command.loop_incomplete {cfg : Cfg} {fuel : Nat} {acc : List Action} {r : Rd} (h : r.Fresh)
    (hl : loop cfg 0 fuel acc r = .error .incomplete) (ha : endsIndirect acc = false)
    (ht : ∀ as s a s', Reads cfg as r.rem s → Action.decode cfg s = .ok (a, s') → a.isTx = false) :
    ∃ as s', Reads cfg as r.rem s' ∧ (∀ a ∈ as, a.isIndirectForward = false) ∧ s' ≠ [] ∧
      Action.decode cfg s' = .error .incomplete := by
  induction fuel generalizing acc r with
  | zero => cases hl
  | succ fuel ih =>
    by_cases hne : r.rem = []
    · rw [loop_nil hne] at hl
      cases hl
    · cases hd : Action.decode cfg r.rem with
      | error e =>
        rw [loop_err h hne ha hd] at hl
        cases hl
        exact ⟨[], r.rem, .nil _, by simp, hne, hd⟩
      | ok x =>
        obtain ⟨a, s1⟩ := x
        have htx := ht [] r.rem a s1 (.nil _) hd
        obtain ⟨r', hr', hf, hrem, -⟩ := loop_step (fuel := fuel) h ha hd htx
        rw [hr'] at hl
        cases hia : a.isIndirectForward with
        | true =>
          have hei : endsIndirect (acc ++ [a]) = true := by rw [endsIndirect_concat]; exact hia
          cases fuel with
          | zero => cases hl
          | succ fuel =>
            by_cases hne' : r'.rem = []
            · rw [loop_nil hne'] at hl
              cases hl
            · obtain ⟨r2, hr2, -⟩ := loop_indirect (cfg := cfg) (fuel := fuel) hf hne' hei
              rw [hr2] at hl
              cases hl
        | false =>
          have hei : endsIndirect (acc ++ [a]) = false := by rw [endsIndirect_concat]; exact hia
          obtain ⟨as, s', hR, hi, hs', hdec⟩ := ih hf hl hei (by
            rw [hrem]
            exact fun as s b s' hR hb => ht (a :: as) s b s' (.cons hd htx hR) hb)
          rw [hrem] at hR
          refine ⟨a :: as, s', .cons hd htx hR, ?_, hs', hdec⟩
          intro b hb
          rcases List.mem_cons.1 hb with rfl | hb
          · exact hia
          · exact hi b hb

end Dash7
