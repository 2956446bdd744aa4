import Verif.Props.Files
import Verif.Props.Reserved
import Verif.Props.Numbers

/-!
# C24, C25, C26, C35, C47: addressees, interface status and forwarding
-/

namespace Dash7

/-! ## C26 -/

/-- Bytes an address takes. -/
def Spec.addressBytes : Address → Nat
  | .nbId _ => 1 | .noId => 0 | .uId _ => 8 | .vId _ => 2
/-- The address type belonging to an address. -/
def Spec.addressCode : Address → Nat
  | .nbId _ => 0 | .noId => 1 | .uId _ => 2 | .vId _ => 3
/-- Bytes a security state takes. -/
def Spec.securityBytes : NlsState → Nat
  | .none => 0 | _ => 5
/-- The security method belonging to a security state. -/
def Spec.securityCode : NlsState → Nat
  | .none => 0 | .aesCtr _ => 1 | .aesCbcMac128 _ => 2 | .aesCbcMac64 _ => 3 | .aesCbcMac32 _ => 4
  | .aesCcm128 _ => 5 | .aesCcm64 _ => 6 | .aesCcm32 _ => 7

/-- The first byte of an addressee. -/
def Spec.addresseeHead (v : Variant) (useVid : Bool) (gc : GroupCondition) (address : Address) (nls : NlsState) : Nat :=
  match v with
  | .wizzilab => 64 * Wire.groupCondition gc + 16 * Spec.addressCode address + 8 * useVid.toNat + Spec.securityCode nls
  | _ => 16 * Spec.addressCode address + Spec.securityCode nls

/-- The second byte of an addressee: access class. -/
def Spec.accessByte (ac : AccessClass) : U8 := BitVec.ofNat 8 (16 * ac.specifier.toNat + ac.mask.toNat)

theorem Wire.address_has (a : Address) : Wire.Has (Wire.address a) (Spec.addressBytes a) := by
  cases a
  · exact .varInt _
  · exact .raw []
  · exact .number 8 _
  · exact .number 2 _

theorem Wire.nlsState_has (a : NlsState) : Wire.Has (Wire.nlsState a) (Spec.securityBytes a) := by
  cases a <;> first | exact .raw [] | exact (Wire.Has.raw _).cast (by simp [Spec.securityBytes])

theorem Wire.addressee_has (v : Variant) (a : Addressee) :
    Wire.Has (Wire.addressee v a) (2 + Spec.addressBytes a.address + Spec.securityBytes a.nlsState) := by
  unfold Wire.addressee
  refine ((Wire.Has.cons (k := 1) ?_ (.cons (.byte _) (.cons (Wire.address_has _) (.cons (Wire.nlsState_has _) .nil)))).cast
    (by omega))
  cases v <;> exact .byte _

/-- **C26** size, of any addressee that has an encoding. -/
theorem C26_size (cfg : Cfg) (a : Addressee) (bytes : List U8) (h : (a.write cfg).toBytes = .ok bytes) :
    bytes.length = 2 + Spec.addressBytes a.address + Spec.securityBytes a.nlsState := by
  rw [(Addressee.lay cfg a).toBytes] at h
  exact Wire.addressee_has _ a bytes (Wire.result_ok h)

/-- **C26** The constructor: type and method bits are those of the address and of the security state, and
the addressee round trips. Group condition and VID flag exist in the wizzilab build only. -/
theorem C26_new (cfg : Cfg) (useVid : Bool) (gc : GroupCondition) (address : Address) (nls : NlsState)
    (ac : AccessClass) (h1 : ac.specifier.toNat < 16) (h2 : ac.mask.toNat < 16)
    (h3 : ∀ n, address = .nbId n → n.WF)
    (h4 : cfg.variant ≠ .wizzilab → gc = .any ∧ useVid = false) :
    ∃ tail, ((Addressee.new useVid gc address nls ac).write cfg).toBytes
        = .ok (BitVec.ofNat 8 (Spec.addresseeHead cfg.variant useVid gc address nls) :: Spec.accessByte ac :: tail) ∧
      tail.length = Spec.addressBytes address + Spec.securityBytes nls ∧
      derivedTryFrom (Addressee.read cfg).run
        (BitVec.ofNat 8 (Spec.addresseeHead cfg.variant useVid gc address nls) :: Spec.accessByte ac :: tail)
        = .ok (Addressee.new useVid gc address nls ac) := by
  have hw : (Addressee.new useVid gc address nls ac).WF cfg := by
    refine ⟨rfl, rfl, ⟨h1, h2⟩, ?_, h4⟩
    show address.WF
    cases address <;> first | exact h3 _ rfl | exact trivial
  obtain ⟨bytes, hb, hd, -⟩ := (Addressee.rt hw).derived (Addressee.mod8 cfg _)
  have hl := hb
  have hlen := C26_size cfg _ bytes hb
  rw [(Addressee.lay cfg _).toBytes] at hl
  have hl : Wire.join _ = some bytes := Wire.result_ok hl
  have key : ∃ tail, bytes = BitVec.ofNat 8 (Spec.addresseeHead cfg.variant useVid gc address nls) ::
      Spec.accessByte ac :: tail := by
    have ha : ∀ fs os, Wire.bits fs = Spec.addresseeHead cfg.variant useVid gc address nls →
        Wire.join (Wire.byte fs :: Wire.accessClass ac :: os) = some bytes →
        ∃ tail, bytes = BitVec.ofNat 8 (Spec.addresseeHead cfg.variant useVid gc address nls) ::
          Spec.accessByte ac :: tail := by
      intro fs os hf hj
      obtain ⟨t, h1', rfl⟩ := Wire.byte_cons hj
      obtain ⟨t', -, rfl⟩ := Wire.byte_cons h1'
      refine ⟨t', ?_⟩
      rw [hf]
      congr 3
      simp [Wire.bits, Wire.width]
      omega
    have hmod : ∀ t : Address, Wire.addressType t.type = Spec.addressCode t := by intro t; cases t <;> rfl
    have hnls : ∀ t : NlsState, Wire.nlsMethod t.method = Spec.securityCode t := by intro t; cases t <;> rfl
    have hc : Spec.addressCode address < 4 := by cases address <;> simp [Spec.addressCode]
    have hs : Spec.securityCode nls < 8 := by cases nls <;> simp [Spec.securityCode]
    have hg : Wire.groupCondition gc < 4 := by cases gc <;> simp [Wire.groupCondition]
    cases hv : cfg.variant <;> rw [hv] at hl ha <;> refine ha _ _ ?_ hl <;>
      simp only [Addressee.new, hmod, hnls, Wire.bits, Wire.width, Spec.addresseeHead] <;>
      cases useVid <;> simp <;> omega
  obtain ⟨tail, rfl⟩ := key
  refine ⟨tail, hb, ?_, hd⟩
  simp only [List.length_cons, Addressee.new] at hlen
  omega

/-- **C26** `update` does for any addressee what the constructor does. -/
theorem C26_update (a : Addressee) :
    a.update = Addressee.new a.useVid a.groupCondition a.address a.nlsState a.accessClass := rfl

example : ((Addressee.new true .equal (.vId 0x1234) (.aesCtr #v[1, 2, 3, 4, 5]) ⟨2, 15⟩).write Sample.wizzilab).toBytes
    = .ok [0xB9, 0x2F, 0x12, 0x34, 1, 2, 3, 4, 5] := by decide +kernel

/-! ## C35 -/

/-- **C35** Error codes are those above 0x80; every named error but `UNKNOWN_ERROR` is classified right. -/
theorem C35_is_err_partial (s : StatusCode) :
    (s.code.toNat ≠ 0x80 → (s.isErr = true ↔ 0x80 ≤ s.code.toNat)) ∧
    (∀ e ∈ StatusCode.namedErrors, e.isErr = true) ∧
    (∀ e ∈ [StatusCode.OK, StatusCode.RECEIVED, StatusCode.ITF_FULL], e.isErr = false) := by
  refine ⟨fun h => ?_, by decide, by decide⟩
  unfold StatusCode.isErr
  simp only [decide_eq_true_eq]
  omega

/-- **C35** fails for `UNKNOWN_ERROR`. -/
theorem C35_unknown_error_violates : StatusCode.UNKNOWN_ERROR.isErr = false := rfl

/-! ## C47 -/

/-- **C47** forward. -/
theorem C47_forward (cfg : Cfg) (response : Bool) (c : InterfaceConfiguration) (h : c.WF cfg) :
    ∃ tail, (Action.forward (.new response c)).toBytes cfg = .ok (BitVec.ofNat 8 (64 * response.toNat + 50) :: tail) ∧
      Action.tryFrom cfg (BitVec.ofNat 8 (64 * response.toNat + 50) :: tail) = .ok (.forward (.new response c)) := by
  have hw : (Action.forward (.new response c)).WF cfg := ⟨rfl, h⟩
  obtain ⟨bytes, hb, hd⟩ := C02_action_roundtrip cfg _ hw
  have hl := hb
  rw [C51_action_layout _ _ rfl] at hl
  have hl : Wire.join _ = some bytes := Wire.result_ok hl
  obtain ⟨t, -, rfl⟩ := Wire.byte_cons hl
  have e : Wire.bits [(1, false.toNat), (1, response.toNat), (6, 50)] = 64 * response.toNat + 50 := by
    cases response <;> rfl
  change _ = Except.ok (BitVec.ofNat 8 (Wire.bits [(1, false.toNat), (1, response.toNat), (6, 50)]) :: t) at hb
  change Action.tryFrom cfg (BitVec.ofNat 8 (Wire.bits [(1, false.toNat), (1, response.toNat), (6, 50)]) :: t) = _ at hd
  rw [e] at hb hd
  exact ⟨t, hb, hd⟩

/-- Bytes an indirect interface takes. -/
def Spec.indirectBytes : Option IndirectInterface → Nat
  | none => 0
  | some (.dash7 a) => 3 + Spec.addressBytes a.address + Spec.securityBytes a.nlsState
  | some _ => 1

/-- **C47** indirect forward: the first bit says whether a configuration follows. -/
theorem C47_indirect (cfg : Cfg) (response : Bool) (c : Option IndirectInterface) (h : ∀ i, c = some i → i.WF cfg) :
    ∃ tail, (Action.indirectForward (.new response c)).toBytes cfg
        = .ok (BitVec.ofNat 8 (128 * c.isSome.toNat + 64 * response.toNat + 51) :: tail) ∧
      Action.tryFrom cfg (BitVec.ofNat 8 (128 * c.isSome.toNat + 64 * response.toNat + 51) :: tail)
        = .ok (.indirectForward (.new response c)) ∧
      tail.length = Spec.indirectBytes c := by
  have hw : (Action.indirectForward (.new response c)).WF cfg := ⟨rfl, rfl, h⟩
  obtain ⟨bytes, hb, hd⟩ := C02_action_roundtrip cfg _ hw
  have hl := hb
  rw [C51_action_layout _ _ rfl] at hl
  have hl : Wire.join _ = some bytes := Wire.result_ok hl
  obtain ⟨t, ht, rfl⟩ := Wire.byte_cons hl
  have e : Wire.bits [(1, c.isSome.toNat), (1, response.toNat), (6, 51)]
      = 128 * c.isSome.toNat + 64 * response.toNat + 51 := by
    cases c <;> cases response <;> rfl
  change _ = Except.ok (BitVec.ofNat 8 (Wire.bits [(1, c.isSome.toNat), (1, response.toNat), (6, 51)]) :: t) at hb
  change Action.tryFrom cfg (BitVec.ofNat 8 (Wire.bits [(1, c.isSome.toNat), (1, response.toNat), (6, 51)]) :: t) = _ at hd
  rw [e] at hb hd
  refine ⟨t, hb, hd, ?_⟩
  replace ht := Wire.join_one ht
  rcases c with _ | (_ | _ | a | i)
  · exact Wire.Has.raw [] _ ht
  · exact Wire.Has.raw [_] _ ht
  · exact Wire.Has.raw [_] _ ht
  · exact ((Wire.Has.raw [_]).cons ((Wire.addressee_has _ a).cons .nil)).cast
      (by simp [Spec.indirectBytes]; omega) _ ht
  · exact Wire.Has.raw [_] _ ht

/-- **C47** `update` sets the overload bit to what the configuration says and touches nothing else. -/
theorem C47_update (o : Op.IndirectForward) :
    o.update = ⟨⟨o.configuration.isSome, o.header.response⟩, o.opcode, o.configuration⟩ ∧
    o.update.update = o.update ∧ (Op.IndirectForward.new o.header.response o.configuration).update
      = .new o.header.response o.configuration := ⟨rfl, rfl, rfl⟩

theorem Action.decode_indirect {cfg : Cfg} {s s' : List Bool} {o : Op.IndirectForward}
    (h : Action.decode cfg s = .ok (.indirectForward o, s')) :
    (Op.IndirectForward.read cfg).eval s = .ok (o, s') := by
  have key : ∀ {f : Op.IndirectForward → Action} {o : Op.IndirectForward},
      ((Op.IndirectForward.read cfg).bind fun o => P.pure (f o)).eval s = .ok (f o, s') →
      (∀ x y, f x = f y → x = y) → (Op.IndirectForward.read cfg).eval s = .ok (o, s') := by
    intro f o hd hf
    obtain ⟨x, s1, h1, h2⟩ := P.bind_inv hd
    injection h2 with h2
    injection h2 with h2 h3
    rw [← hf _ _ h2, ← h3]
    exact h1
  obtain ⟨c, -, -, hop, -, hd, -⟩ := Action.decode_ok h
  have hop' : opAt 2 s = ⟨BitVec.ofNat 8 (Spec.opcodeOf (.indirectForward o))⟩ := by
    rw [hop]; simp
  rw [hop'] at hd
  exact key hd (fun _ _ h => by injection h)

/-- **C47** for decoded actions: the overload bit received is the presence of a configuration, so `update` leaves
the action alone. -/
theorem C47_decoded (cfg : Cfg) (data : List U8) (rest : Rest) (o : Op.IndirectForward)
    (h : Action.fromBytes cfg (data, 0) = .ok (rest, .indirectForward o)) :
    o.update = o ∧ ∃ b t, data = b :: t ∧ (o.configuration.isSome = true ↔ 128 ≤ b.toNat) ∧
      (o.header.response = true ↔ 64 ≤ b.toNat % 128) := by
  obtain ⟨p, q, hp, hne, hd, rfl⟩ := Action.fromBytes_inv h rfl
  obtain ⟨c, -, hD, -⟩ := Action.decode_ok hd
  obtain ⟨hov, -⟩ : o.WF cfg := hD.wf rfl rfl
  refine ⟨?_, ?_⟩
  · unfold Op.IndirectForward.update
    rw [← hov]
  · cases data with
    | nil => simp at hp; exact absurd hp.1 hne
    | cons b t =>
      refine ⟨b, t, rfl, ?_⟩
      have hr := Action.decode_indirect hd
      obtain ⟨hh, s1, e1, hr⟩ := P.bind_inv (p := Op.IndirectForwardHeader.read) hr
      obtain ⟨oo, s2, e2, hr⟩ := P.bind_inv (p := OpCode.read) hr
      obtain ⟨cc, s3, e3, hr⟩ := P.bind_inv (p := P.cond hh.overloaded (IndirectInterface.read cfg)) hr
      injection hr with hr
      injection hr with hr1 hr2
      subst hr1
      rw [← hov]
      have key : ∀ (b : U8) (t : List Bool), Op.IndirectForwardHeader.read.eval (natBits 8 b.toNat ++ t)
          = .ok (⟨decide (128 ≤ b.toNat), decide (64 ≤ b.toNat % 128)⟩, natBits 6 b.toNat ++ t) := by
        intro b t
        have h0 : ∀ b : U8, natBits 8 b.toNat
            = decide (128 ≤ b.toNat) :: decide (64 ≤ b.toNat % 128) :: natBits 6 b.toNat :=
          U8.forall (by decide +kernel)
        rw [h0]
        simp [Op.IndirectForwardHeader.read, P.flag, P.eval, P.bind, Bind.bind]
      change Op.IndirectForwardHeader.read.eval (natBits 8 b.toNat ++ bytesBits t) = _ at e1
      rw [key] at e1
      injection e1 with e1
      injection e1 with e1
      subst e1
      simp

example : Action.fromBytes Sample.spec ([0xF3, 0x01, 0x00], 0)
    = .ok (([], 0), .indirectForward ⟨⟨true, true⟩, ⟨51⟩, some .serial⟩) := by decide +kernel

example : (Op.IndirectForward.new true (some (.dash7 Sample.addressee))).header.overloaded = true ∧
    IndirectInterface.WF Sample.spec (.dash7 Sample.addressee) := by decide

/-! ## C25 -/

/-- The bytes that identify the interface of a status. -/
def Spec.statusId : InterfaceStatus → List U8
  | .host => [0x00] | .serial => [0x01] | .dash7 _ => [0xD7] | .other _ => []

/-- Bytes the decoder takes for a status behind its length operand. -/
def Spec.statusBytes (declared : Nat) : InterfaceStatus → Nat
  | .host => 0
  | .serial => 0
  | .dash7 s => 12 + Spec.addressBytes s.addressee.address + Spec.securityBytes s.addressee.nlsState
  | .other _ => declared

theorem lengthAfter_eval (b : U8) {s s' : List Bool} {l : Length} (h : (Op.lengthAfter b).eval s = .ok (l, s')) :
    Length.read.eval (natBits 8 b.toNat ++ s) = .ok (l, s') := by
  have h0 : natBits 8 b.toNat = natBits 2 (b.toNat / 64) ++ natBits 6 (b.toNat % 64) := by
    have := natBits_append 2 6 b.toNat
    rw [natBits_eq_mod 6 b.toNat] at this
    exact this
  have hb : b.toNat < 256 := b.isLt
  unfold Op.lengthAfter at h
  obtain ⟨v, s1, h1, h2⟩ := P.bind_inv (p := P.uint 32 (b.toNat / 64 * 8)) h
  injection h2 with h2
  injection h2 with h2 h3
  subst h2 h3
  unfold P.uint at h1
  rw [if_neg (by omega), P.eval_bits] at h1
  split at h1
  · rename_i hlen
    injection h1 with h1
    injection h1 with h1 h2
    subst h1 h2
    unfold Length.read
    rw [h0, P.bind_eq, P.eval_bind, P.uint, if_neg (by omega), P.eval_bits, if_pos (by simp)]
    rw [List.append_assoc, List.take_append_of_le_length (by simp), List.drop_append_of_le_length (by simp),
      List.take_of_length_le (by simp), List.drop_of_length_le (by simp)]
    simp only [P.eval_pure, P.bind_eq, List.nil_append]
    rw [bitsNat_natBits_of_lt (by omega), BitVec.toNat_ofNat, Nat.mod_eq_of_lt (by omega), P.eval_bind, P.uint, if_neg (by omega),
      P.eval_bits, if_pos (by simp; omega), List.take_append, List.drop_append]
    simp only [natBits_length, Nat.add_sub_cancel_left, P.eval_pure]
    rw [List.take_of_length_le (by simp), List.drop_of_length_le (by simp), bitsNat_append,
      bitsNat_natBits_of_lt (by omega), List.length_take, Nat.min_eq_left hlen, BitVec.toNat_ofNat,
      Nat.mod_eq_of_lt (a := bitsNat _)]
    · rfl
    · refine Nat.lt_of_lt_of_le (bitsNat_lt _) (Nat.pow_le_pow_right (by omega) ?_)
      simp; omega
  · cases h1

theorem derivedLength {x : List U8} {l : Length} (h : ∀ t, Length.read.eval (bytesBits x ++ t) = .ok (l, t)) :
    derivedTryFrom Length.read.run x = .ok l := by
  obtain ⟨_, y, -, hy, -, h2⟩ := derived_ok (p := Length.read) (data := x) (a := l) (s' := [])
    (by simpa using h []) (by simp)
  rw [h2, if_pos (bytesBits_eq_nil.1 hy.symm)]

theorem Addressee.bits_spec {cfg : Cfg} {a : Addressee} (h : a.WF cfg) :
    a.bits = 8 * (2 + Spec.addressBytes a.address + Spec.securityBytes a.nlsState) := by
  obtain ⟨h1, h2, -⟩ := h
  rw [Addressee.bits, h1, h2]
  cases a.address <;> cases a.nlsState <;> rfl

theorem Op.InterfaceStatusOperation.consumed {cfg : Cfg} {data q : List U8} {o : Op.InterfaceStatusOperation}
    (h : (Op.InterfaceStatusOperation.read cfg).eval (bytesBits data) = .ok (o, bytesBits q)) :
    ∃ id l body declared, data = id ++ (l ++ (body ++ q)) ∧ o.interfaceType = o.status.type ∧
      (o.status.type ≠ .unknown → id = Spec.statusId o.status) ∧
      (o.status.type = .unknown → id.length = cfg.unitPatConsumes.toNat) ∧
      derivedTryFrom Length.read.run l = .ok declared ∧
      body.length = Spec.statusBytes declared.val.toNat o.status ∧
      (∀ b, o.status = .other b → b = body) ∧ ∃ b d, data = b :: d ∧ InterfaceType.ofId b = o.status.type := by
  obtain ⟨b, s1, e1, h⟩ := P.bind_inv (p := P.u8) h
  obtain ⟨len, s2, e2, h⟩ := P.bind_inv (p := Op.statusLength cfg b) h
  obtain ⟨st, s3, e3, h⟩ := P.bind_inv (p := InterfaceStatus.read cfg (InterfaceType.ofId b) len.val) h
  injection h with h
  injection h with h1 h2
  subst h1 h2
  cases data with
  | nil => cases e1
  | cons b' d =>
  rw [P.u8_byte] at e1
  injection e1 with e1
  injection e1 with e1 e1'
  subst e1 e1'
  -- the status itself
  obtain ⟨c3, g3, d3⟩ := P.eval_ok _ e3
  have hst : InterfaceType.ofId b' = st.type ∧ c3.length = 8 * Spec.statusBytes len.val.toNat st := by
    have h3 := d3 []
    revert h3
    cases InterfaceType.ofId b' with
    | host => intro h3; injection h3 with h3; injection h3 with h3 h4; subst h3; exact ⟨rfl, by have := congrArg List.length h4; simpa [Spec.statusBytes] using this⟩
    | serial => intro h3; injection h3 with h3; injection h3 with h3 h4; subst h3; exact ⟨rfl, by have := congrArg List.length h4; simpa [Spec.statusBytes] using this⟩
    | loRaWanABP => intro h3; cases h3
    | loRaWanOTAA => intro h3; cases h3
    | dash7 =>
      intro h3
      obtain ⟨s, rfl, hw, hn⟩ := InterfaceStatus.readDash7_post cfg _ _ _ _ h3
      refine ⟨rfl, ?_⟩
      rw [hn, Addressee.bits_spec hw.2, Spec.statusBytes]
      omega
    | unknown =>
      intro h3
      obtain ⟨s, rfl, hw, hn⟩ := InterfaceStatus.readOther_post cfg _ _ _ _ h3
      exact ⟨rfl, by rw [hn, hw]; rfl⟩
  have hother : ∀ body b, st = .other b → c3 = bytesBits body → b = body := by
    rintro body b rfl rfl
    have h3 := d3 []
    rw [hst.1] at h3
    obtain ⟨s, hs, hw, hn⟩ := InterfaceStatus.readOther_post cfg _ _ _ _ h3
    injection hs with hs
    subst hs
    have hl : body.length = len.val.toNat := by rw [bytesBits_length] at hn; omega
    obtain ⟨bs, hbw, hrt⟩ := RT.bytes hl
    have hbs : bs = bytesBits body := by
      rw [W.list_u8] at hbw; injection hbw with hbw; exact hbw.symm
    have h5 := hrt []
    rw [hbs] at h5
    change ((P.count P.u8 len.val.toNat).bind fun b => P.pure (InterfaceStatus.other b)).eval _ = _ at h3
    rw [P.eval_bind, h5] at h3
    injection h3 with h3
    injection h3 with h3
    injection h3 with h3
    exact h3.symm
  by_cases hu : InterfaceType.ofId b' = .unknown ∧ cfg.unitPatConsumes = false
  · rw [Op.statusLength, if_pos hu] at e2
    have e4 := lengthAfter_eval b' e2
    change Length.read.eval (bytesBits (b' :: d)) = _ at e4
    obtain ⟨c2, g2, d2⟩ := P.eval_ok _ e4
    obtain ⟨-, -, k, -, l2⟩ := Length.post' _ _ _ (d2 [])
    rw [g3] at g2
    obtain ⟨l, q1, hl, rfl, g4, -⟩ := bytesBits_suffix g2 (by omega)
    obtain ⟨body, q2, rfl, rfl, g5, n5⟩ := bytesBits_suffix g4.symm (by omega)
    obtain rfl := bytesBits_inj g5
    refine ⟨[], l, body, len, hl, hst.1, fun hn => absurd (hst.1 ▸ hu.1) hn, fun _ => by rw [hu.2]; rfl, derivedLength d2,
      by dsimp only; omega, fun b hb => hother _ _ hb rfl, b', _, rfl, hst.1⟩
  · rw [Op.statusLength, if_neg hu] at e2
    obtain ⟨c2, g2, d2⟩ := P.eval_ok _ e2
    obtain ⟨-, -, k, -, l2⟩ := Length.post' _ _ _ (d2 [])
    rw [g3] at g2
    obtain ⟨l, q1, rfl, rfl, g4, -⟩ := bytesBits_suffix g2 (by omega)
    obtain ⟨body, q2, rfl, rfl, g5, n5⟩ := bytesBits_suffix g4.symm (by omega)
    obtain rfl := bytesBits_inj g5
    refine ⟨[b'], l, body, len, rfl, hst.1, ?_, ?_, derivedLength d2,
      by dsimp only; omega, fun b hb => hother _ _ hb rfl, b', _, rfl, hst.1⟩
    · intro hn
      have hall : ∀ b : U8, ∀ s : InterfaceStatus, InterfaceType.ofId b = s.type → s.type ≠ .unknown →
          [b] = Spec.statusId s := by
        have : ∀ b : U8, (InterfaceType.ofId b = .host → b = 0) ∧ (InterfaceType.ofId b = .serial → b = 1) ∧
            (InterfaceType.ofId b = .dash7 → b = 0xD7) := U8.forall (by decide +kernel)
        intro b s
        cases s <;> simp only [InterfaceStatus.type, Spec.statusId, List.cons.injEq, and_true]
        · exact fun h _ => (this b).1 h
        · exact fun h _ => (this b).2.1 h
        · exact fun h _ => (this b).2.2 h
        · exact fun _ h => absurd rfl h
      exact hall _ _ hst.1 hn
    · intro hn
      dsimp only at hn
      rw [← hst.1] at hn
      have : cfg.unitPatConsumes = true := by
        cases hc : cfg.unitPatConsumes with
        | true => rfl
        | false => exact absurd ⟨hn, hc⟩ hu
      rw [this]; rfl

theorem Action.decode_status {cfg : Cfg} {s s' : List Bool} {o : Op.StatusOperand}
    (h : Action.decode cfg s = .ok (.status o, s')) :
    (Op.StatusOperand.read cfg).eval s = .ok (o, s') := by
  have key : ∀ {f : Op.StatusOperand → Action} {o : Op.StatusOperand},
      ((Op.StatusOperand.read cfg).bind fun o => P.pure (f o)).eval s = .ok (f o, s') →
      (∀ x y, f x = f y → x = y) → (Op.StatusOperand.read cfg).eval s = .ok (o, s') := by
    intro f o hd hf
    obtain ⟨x, s1, h1, h2⟩ := P.bind_inv hd
    injection h2 with h2
    injection h2 with h2 h3
    rw [← hf _ _ h2, ← h3]
    exact h1
  obtain ⟨c, -, -, hop, -, hd, -⟩ := Action.decode_ok h
  have hop' : opAt 2 s = ⟨BitVec.ofNat 8 (Spec.opcodeOf (.status o))⟩ := by
    rw [hop]; simp
  rw [hop'] at hd
  exact key hd (fun _ _ h => by injection h)

/-- The interface status an action carries. -/
def Spec.statusOf? : Action → Option InterfaceStatus
  | .status ⟨_, _, .interface o⟩ => some o.status
  | _ => none

theorem Action.decode_interface {cfg : Cfg} {data q : List U8} {t : Op.StatusType} {oc : OpCode}
    {o : Op.InterfaceStatusOperation}
    (h : Action.decode cfg (bytesBits data) = .ok (.status ⟨t, oc, .interface o⟩, bytesBits q)) :
    ∃ head d, data = head :: d ∧ (Op.InterfaceStatusOperation.read cfg).eval (bytesBits d) = .ok (o, bytesBits q) := by
  have hr := Action.decode_status h
  obtain ⟨tt, s1, e1, hr⟩ := P.bind_inv (p := Op.StatusType.read) hr
  obtain ⟨oo, s2, e2, hr⟩ := P.bind_inv (p := OpCode.read) hr
  obtain ⟨st, s3, e3, hr⟩ := P.bind_inv (p := Op.Status.read cfg tt) hr
  injection hr with hr
  injection hr with hr hr'
  injection hr with hr1 hr2 hr3
  subst hr1 hr2 hr3
  have e4 : (Op.InterfaceStatusOperation.read cfg).eval s2 = .ok (o, s3) := by
    cases tt with
    | action =>
      obtain ⟨x, s4, -, h2⟩ := P.bind_inv (p := ActionStatus.read) e3
      cases h2
    | interface =>
      obtain ⟨x, s4, h1, h2⟩ := P.bind_inv (p := Op.InterfaceStatusOperation.read cfg) e3
      injection h2 with h2
      injection h2 with h2 h3
      injection h2 with h2
      subst h2 h3
      exact h1
    | interfaceFinal =>
      cases hv : cfg.variant with
      | wizzilab =>
        have e5 : (Op.InterfaceFinalStatusOperation.read.bind fun o => P.pure (Op.Status.interfaceFinal o)).eval s2
            = .ok (.interface o, s3) := by
          rw [← e3, Op.Status.read, hv]; rfl
        obtain ⟨x, s4, -, h2⟩ := P.bind_inv e5
        cases h2
      | _ => rw [Op.Status.read, hv] at e3; cases e3
  obtain ⟨c1, g1, d1⟩ := P.eval_ok _ e1
  obtain ⟨c2, rfl, d2⟩ := P.eval_ok _ e2
  have l1 := (Op.StatusType.post _ _ _ (d1 [])).2
  have l2 := (OpCode.post _ _ _ (d2 [])).2
  rw [← List.append_assoc c1] at g1
  obtain ⟨p1, q1, hp1, b1, g2, n1⟩ := bytesBits_suffix g1 (by rw [List.length_append]; omega)
  rw [List.length_append] at n1
  match p1, (show p1.length = 1 by omega) with
  | [head], _ =>
  rw [g2, hr'] at e4
  exact ⟨head, q1, hp1, e4⟩

/-- **C25** What is consumed: behind the header byte come the interface id, the length operand, and
`body`. `body` is as long as declared for unknown interfaces only. -/
theorem C25_consumed (cfg : Cfg) (data : List U8) (rest : Rest) (a : Action) (s : InterfaceStatus)
    (h : Action.fromBytes cfg (data, 0) = .ok (rest, a)) (hs : Spec.statusOf? a = some s) :
    ∃ head id l body q declared, data = head :: (id ++ (l ++ (body ++ q))) ∧
      (match s with
        | .host => id = [0x00] ∧ body.length = 0
        | .serial => id = [0x01] ∧ body.length = 0
        | .dash7 s => id = [0xD7] ∧
          body.length = 12 + Spec.addressBytes s.addressee.address + Spec.securityBytes s.addressee.nlsState
        | .other b => id.length = cfg.unitPatConsumes.toNat ∧ body.length = declared.val.toNat ∧ b = body) ∧
      derivedTryFrom Length.read.run l = .ok declared ∧
      rest = (q.drop 1, 0) ∧
      ∀ q', Action.fromBytes cfg (head :: (id ++ (l ++ (body ++ q'))), 0) = .ok ((q'.drop 1, 0), a) := by
  have ha : ∃ t oc o, a = .status ⟨t, oc, .interface o⟩ ∧ o.status = s := by
    unfold Spec.statusOf? at hs
    split at hs
    · rename_i t oc o
      injection hs with hs
      exact ⟨t, oc, o, rfl, hs⟩
    · cases hs
  obtain ⟨t, oc, o, rfl, rfl⟩ := ha
  obtain ⟨p, q, hpq, hne, hd, rfl⟩ := Action.fromBytes_inv h rfl
  obtain ⟨head, q1, hp1, e4⟩ := Action.decode_interface hd
  obtain ⟨id, l, body, declared, hq1, ht, k1, k2, k3, k4, k5, -⟩ := Op.InterfaceStatusOperation.consumed e4
  have hdata : data = head :: (id ++ (l ++ (body ++ q))) := by rw [hp1, hq1]
  refine ⟨head, id, l, body, q, declared, hdata, ?_, k3, rfl, ?_⟩
  · revert k1 k2 k4 k5
    cases o.status with
    | host => exact fun k1 k2 k4 k5 => ⟨k1 (by simp [InterfaceStatus.type]), k4⟩
    | serial => exact fun k1 k2 k4 k5 => ⟨k1 (by simp [InterfaceStatus.type]), k4⟩
    | dash7 s => exact fun k1 k2 k4 k5 => ⟨k1 (by simp [InterfaceStatus.type]), k4⟩
    | other b => exact fun k1 k2 k4 k5 => ⟨k2 rfl, k4, k5 b rfl⟩
  · intro q'
    obtain ⟨c, hc, -, -, -, -, hrd⟩ := Action.decode_ok hd
    have hc' : c = bytesBits (head :: (id ++ (l ++ body))) := by
      have e : data = (head :: (id ++ (l ++ body))) ++ q := by rw [hdata]; simp
      rw [e, bytesBits_append] at hc
      exact (List.append_cancel_right hc).symm
    have e : head :: (id ++ (l ++ (body ++ q'))) = (head :: (id ++ (l ++ body))) ++ q' := by simp
    have hdq := hrd (bytesBits q')
    rw [hc', ← bytesBits_append, ← e] at hdq
    obtain ⟨p', q'', h1, h2, -, h4, -⟩ := Action.fromBytes_ok hdq rfl
    rw [h4, bytesBits_inj h2]

/-- **C25** holds for unknown interfaces, and for the known ones if the declared length is that of the kind. -/
theorem C25_unknown_partial (cfg : Cfg) (data : List U8) (rest : Rest) (a : Action) (b : List U8)
    (h : Action.fromBytes cfg (data, 0) = .ok (rest, a)) (hs : Spec.statusOf? a = some (.other b)) :
    ∃ pre l q declared, data = pre ++ (l ++ (b ++ q)) ∧ pre.length = 1 + cfg.unitPatConsumes.toNat ∧
      derivedTryFrom Length.read.run l = .ok declared ∧ b.length = declared.val.toNat ∧ rest = (q.drop 1, 0) := by
  obtain ⟨head, id, l, body, q, declared, h1, ⟨h2, h3, h4⟩, h5, h6, -⟩ := C25_consumed cfg data rest a _ h hs
  subst h4
  exact ⟨head :: id, l, q, declared, by rw [h1]; rfl, by simp; omega, h5, h3, h6⟩

/-- **C25** fails for the host interface: of five declared bytes none is consumed. -/
theorem C25_host_violates (cfg : Cfg) :
    Action.fromBytes cfg ([0x62, 0x00, 5, 1, 2, 3, 4, 5], 0)
      = .ok (([2, 3, 4, 5], 0), .status ⟨.interface, ⟨34⟩, .interface ⟨.host, .host⟩⟩) := by
  rcases cfg with ⟨v, a, b, c, d⟩
  cases v <;> cases a <;> cases b <;> cases c <;> cases d <;> decide +kernel

/-- **C25** fails for DASH7: of one declared byte twelve are consumed. -/
theorem C25_dash7_violates (cfg : Cfg) :
    ∃ s, Action.fromBytes cfg ([0x62, 0xD7, 1, 0x3A, 0x01, 0x23, 1, 2, 3, 0, 4, 5, 0, 0x10, 0xFF, 6, 7], 0)
      = .ok (([7], 0), .status ⟨.interface, ⟨34⟩, .interface ⟨.dash7, .dash7 s⟩⟩) := by
  refine ⟨⟨Sample.channel, 1, 2, 3, false, false, false, false, 4, 5, ⟨0, false⟩, ⟨.any, .noId, false, .none, ⟨15, 15⟩, .noId, .none⟩⟩, ?_⟩
  rcases cfg with ⟨v, a, b, c, d⟩
  cases v <;> cases a <;> cases b <;> cases c <;> cases d <;> decide +kernel

example : Action.fromBytes Sample.spec ([0x62, 0x04, 1, 2, 3, 4, 5], 0)
    = .ok (([], 0), .status ⟨.interface, ⟨34⟩, .interface ⟨.unknown, .other [1, 2, 3, 4]⟩⟩) := by decide +kernel

/-! ## C24 -/

theorem Spec.length_head (n : Nat) : ∃ t, Spec.length n = BitVec.ofNat 8 (Spec.lengthHead n) :: t := by
  unfold Spec.length Spec.lengthWith Spec.lengthExtra Spec.lengthHead
  by_cases h6 : n < 2 ^ 6
  · exact ⟨_, by simp only [h6, if_true]; rw [Spec.bigEndian]; congr 2; omega⟩
  by_cases h14 : n < 2 ^ 14
  · exact ⟨_, by simp only [h6, h14, if_true, if_false]; rw [Spec.bigEndian]; congr 2; omega⟩
  by_cases h22 : n < 2 ^ 22
  · exact ⟨_, by simp only [h6, h14, h22, if_true, if_false]; rw [Spec.bigEndian]; congr 2; omega⟩
  · exact ⟨_, by simp only [h6, h14, h22, if_false]; rw [Spec.bigEndian]; congr 2; omega⟩

theorem InterfaceStatus.other_wf {cfg : Cfg} {b q : List U8}
    (he : (Op.InterfaceStatusOperation.read cfg).eval (bytesBits (Spec.length (b.length % 2 ^ 32) ++ b))
      = .ok (.ofStatus (.other b), bytesBits q)) : InterfaceStatus.WF cfg (.other b) := by
  obtain ⟨id, l, body, declared, h1, -, -, h4, h5, h6, h7, b', d, h8', h9⟩ := Op.InterfaceStatusOperation.consumed he
  obtain rfl := h7 b rfl
  change b.length = declared.val.toNat at h6
  replace h4 := h4 rfl
  obtain ⟨s2, e2, -⟩ := derivedTryFrom_inv h5
  obtain ⟨c2, hc2, hd2⟩ := P.eval_ok _ e2
  obtain ⟨w1, w2, -⟩ := Length.post' _ _ _ (hd2 [])
  have hb : b.length < 2 ^ 30 := by rw [h6]; exact w1
  rw [Nat.mod_eq_of_lt (by omega)] at h1 h8'
  obtain ⟨bs, hbs, hle⟩ := w2
  rw [Length.write_bits w1] at hbs
  injection hbs with hbs
  rw [← hbs, bytesBits_length, ← h6] at hle
  have hlen2 := congrArg List.length hc2
  rw [bytesBits_length, List.length_append] at hlen2
  have hl1 := congrArg List.length h1
  simp only [List.length_append] at hl1
  have hu : cfg.unitPatConsumes = false := by
    cases hc : cfg.unitPatConsumes with
    | false => rfl
    | true => rw [hc] at h4; simp at h4; omega
  obtain ⟨t, ht⟩ := Spec.length_head b.length
  rw [ht] at h8'
  injection h8' with h8' _
  subst h8'
  have hcase : Spec.lengthHead b.length ≠ 0 ∧ Spec.lengthHead b.length ≠ 1 ∧ Spec.lengthHead b.length ≠ 2 ∧
      Spec.lengthHead b.length ≠ 3 ∧ Spec.lengthHead b.length ≠ 0xD7 := by
    refine ⟨?_, ?_, ?_, ?_, ?_⟩ <;> intro hz <;> rw [hz] at h9 <;> cases h9
  refine ⟨hu, ?_, hb, hcase.2.2.2.2⟩
  have := hcase
  unfold Spec.lengthHead at this
  by_cases h64 : b.length < 2 ^ 6
  · simp only [h64, if_true] at this; omega
  · omega

/-- **C24** Precisely which status values come back from their encoding. -/
theorem C24_exact (cfg : Cfg) (s : InterfaceStatus) (bytes : List U8)
    (h : ((Op.InterfaceStatusOperation.ofStatus s).write cfg).toBytes = .ok bytes) :
    derivedTryFrom (Op.InterfaceStatusOperation.read cfg).run bytes = .ok (.ofStatus s) ↔ s.WF cfg := by
  have hlay := h
  have hm : Mod8 ((Op.InterfaceStatusOperation.ofStatus s).write cfg) 0 := Op.Status.mod8 cfg (.interface (.ofStatus s))
  constructor
  · intro hd
    obtain ⟨s', he, hlt⟩ := derivedTryFrom_inv hd
    obtain ⟨c, hc, hdc⟩ := P.eval_ok _ he
    obtain ⟨⟨-, hwf, h8⟩, -⟩ := Op.InterfaceStatusOperation.post cfg _ _ _ (hdc [])
    have hl := congrArg List.length hc
    rw [bytesBits_length, List.length_append] at hl
    have hs' : s' = bytesBits [] := List.length_eq_zero_iff.1 (by omega)
    subst hs'
    cases s with
    | host => trivial
    | serial => trivial
    | dash7 s => exact hwf (by intro b; simp [Op.InterfaceStatusOperation.ofStatus])
    | other b =>
      have hlay : bytes = Spec.length (b.length % 2 ^ 32) ++ b := by
        change ((Op.Status.interface (.ofStatus (.other b))).write cfg).toBytes = _ at hlay
        rw [(Op.Status.lay cfg (.interface (.ofStatus (.other b)))).toBytes] at hlay
        obtain ⟨x, y, hx, hy, rfl⟩ := Wire.join_cons (Wire.result_ok hlay)
        cases hx
        obtain ⟨x, y, hx, hz, rfl⟩ := Wire.join_cons (Wire.join_one hy)
        obtain ⟨-, rfl⟩ := Wire.length_some hx
        have := Wire.join_one hz
        injection this with this
        rw [List.nil_append, this]
      subst hlay
      exact InterfaceStatus.other_wf he
  · intro hw
    obtain ⟨bytes', hb, hd, -⟩ := (Op.InterfaceStatusOperation.rt (o := .ofStatus s) rfl hw).derived hm
    rw [h] at hb
    injection hb with hb
    subst hb
    exact hd

theorem Wire.dash7Status_has (v : Variant) (s : Dash7InterfaceStatus) :
    Wire.Has (Wire.dash7InterfaceStatus v s)
      (12 + Spec.addressBytes s.addressee.address + Spec.securityBytes s.addressee.nlsState) := by
  refine (Wire.Has.cons ((Wire.Has.byte _).cons ((Wire.Has.number 2 _).cons .nil)) ((Wire.Has.raw _).cons ((Wire.Has.byte _).cons
    ((Wire.Has.raw _).cons ((Wire.Has.varInt _).cons ((Wire.addressee_has v _).cons .nil)))))).cast ?_
  simp only [List.length_cons, List.length_nil]
  omega

theorem Wire.status_bytes (cfg : Cfg) (s : InterfaceStatus) (bytes : List U8)
    (h : (Action.status (.ofStatus (.interface (.ofStatus s)))).toBytes cfg = .ok bytes) :
    ∃ body, bytes = 0x62 :: (Spec.statusId s ++ (Spec.length (body.length % 2 ^ 32) ++ body)) ∧
      (s.write cfg).toBytes = .ok body := by
  rw [C51_action_layout _ _ rfl] at h
  obtain ⟨y, hy, rfl⟩ := Wire.byte_cons (Wire.result_ok h)
  obtain ⟨x, y, hx, hz, rfl⟩ := Wire.join_cons (Wire.join_one hy)
  clear hy
  have hy := Wire.join_one hz
  clear hz
  rw [(InterfaceStatus.lay cfg s).toBytes]
  have hid : x = Spec.statusId s := by cases s <;> cases hx <;> rfl
  subst hid
  change Wire.prefixed (Wire.interfaceStatus cfg.variant s) = some y at hy
  cases hs : Wire.interfaceStatus cfg.variant s with
  | none => rw [hs] at hy; cases hy
  | some body =>
    rw [hs] at hy
    obtain ⟨x, z, hx, hz, rfl⟩ := Wire.join_cons hy
    obtain ⟨-, rfl⟩ := Wire.length_some hx
    have := Wire.join_one hz
    injection this with this
    subst this
    exact ⟨body, rfl, rfl⟩

/-- **C24** for the interfaces there are: header, interface id, length operand and status, decoding to the same. -/
theorem C24_known_partial (cfg : Cfg) (s : InterfaceStatus) (hs : ∀ b, s ≠ .other b) (hw : s.WF cfg) :
    ∃ body, (Action.status (.ofStatus (.interface (.ofStatus s)))).toBytes cfg
        = .ok (0x62 :: (Spec.statusId s ++ (Spec.length body.length ++ body))) ∧
      (s.write cfg).toBytes = .ok body ∧ body.length = Spec.statusBytes 0 s ∧
      Action.tryFrom cfg (0x62 :: (Spec.statusId s ++ (Spec.length body.length ++ body)))
        = .ok (.status (.ofStatus (.interface (.ofStatus s)))) := by
  obtain ⟨bytes, hb, hd⟩ := C02_action_roundtrip cfg (.status (.ofStatus (.interface (.ofStatus s)))) ⟨rfl, rfl, rfl, hw⟩
  obtain ⟨body, rfl, hbody⟩ := Wire.status_bytes cfg s bytes hb
  have hl : body.length = Spec.statusBytes 0 s := by
    have h := hbody
    rw [(InterfaceStatus.lay cfg s).toBytes] at h
    replace h := Wire.result_ok h
    cases s with
    | host => cases h; rfl
    | serial => cases h; rfl
    | dash7 s => exact Wire.dash7Status_has _ s _ h
    | other b => exact absurd rfl (hs b)
  have hm : body.length % 2 ^ 32 = body.length := by
    refine Nat.mod_eq_of_lt ?_
    rw [hl]
    cases s with
    | dash7 s =>
      have h1 : Spec.addressBytes s.addressee.address ≤ 8 := by cases s.addressee.address <;> simp [Spec.addressBytes]
      have h2 : Spec.securityBytes s.addressee.nlsState ≤ 5 := by cases s.addressee.nlsState <;> simp [Spec.securityBytes]
      simp only [Spec.statusBytes]; omega
    | _ => simp [Spec.statusBytes]
  rw [hm] at hb hd
  exact ⟨body, hb, hbody, hl, hd⟩

/-- **C24** An unknown interface has no id on the wire. -/
theorem C24_unknown_id_violates (cfg : Cfg) (b bytes : List U8)
    (h : (Action.status (.ofStatus (.interface (.ofStatus (.other b))))).toBytes cfg = .ok bytes) :
    bytes = 0x62 :: (Spec.length (b.length % 2 ^ 32) ++ b) := by
  obtain ⟨body, rfl, hb⟩ := Wire.status_bytes cfg _ bytes h
  rw [(InterfaceStatus.lay cfg _).toBytes] at hb
  cases hb
  rfl

/-- **C24** for unknown interfaces: where it holds, and only there. -/
theorem C24_unknown_partial (cfg : Cfg) (b : List U8) :
    (∃ bytes, (Action.status (.ofStatus (.interface (.ofStatus (.other b))))).toBytes cfg = .ok bytes ∧
      Action.tryFrom cfg bytes = .ok (.status (.ofStatus (.interface (.ofStatus (.other b)))))) ↔
    (cfg.unitPatConsumes = false ∧ 4 ≤ b.length ∧ b.length < 2 ^ 30 ∧ (Spec.length b.length).head? ≠ some 0xD7) := by
  have hhead : ∀ n, (Spec.length n).head? ≠ some 0xD7 ↔ Spec.lengthHead n % 256 ≠ 0xD7 := by
    intro n
    obtain ⟨t, ht⟩ := Spec.length_head n
    rw [ht, List.head?_cons, ne_eq, Option.some.injEq, ← BitVec.toNat_inj, BitVec.toNat_ofNat]
    rfl
  have hlt : ∀ n, n < 2 ^ 30 → Spec.lengthHead n % 256 = Spec.lengthHead n := by
    intro n hn
    refine Nat.mod_eq_of_lt ?_
    unfold Spec.lengthHead
    (repeat' split) <;> omega
  constructor
  · rintro ⟨bytes, h1, h2⟩
    have h3 := C24_unknown_id_violates cfg b bytes h1
    subst h3
    have hf : ∃ rest, Action.fromBytes cfg (0x62 :: (Spec.length (b.length % 2 ^ 32) ++ b), 0)
        = .ok (rest, .status (.ofStatus (.interface (.ofStatus (.other b))))) := by
      unfold Action.tryFrom at h2
      split at h2
      · cases h2
      · split at h2
        · cases h2
        · rename_i rest a he hr
          injection h2 with h2
          subst h2
          exact ⟨_, he⟩
    obtain ⟨rest, hf⟩ := hf
    obtain ⟨p, q, -, -, hd, -⟩ := Action.fromBytes_inv hf rfl
    obtain ⟨head, d, hdata, he⟩ := Action.decode_interface hd
    injection hdata with _ hdata
    subst hdata
    obtain ⟨k1, k2, k3, k4⟩ := InterfaceStatus.other_wf he
    refine ⟨k1, k2, k3, ?_⟩
    rw [hhead, hlt _ k3]
    exact k4
  · rintro ⟨h1, h2, h3, h4⟩
    rw [hhead, hlt _ h3] at h4
    exact C02_action_roundtrip cfg _ ⟨rfl, rfl, rfl, h1, h2, h3, h4⟩

/-- **C24** An unknown interface with a status of three bytes comes back as nothing (the length is taken for the id
of a LoRaWAN interface). -/
theorem C24_unknown_violates (cfg : Cfg) :
    (Action.status (.ofStatus (.interface (.ofStatus (.other [1, 2, 3]))))).toBytes cfg = .ok [0x62, 3, 1, 2, 3] ∧
    Action.tryFrom cfg [0x62, 3, 1, 2, 3] = .error (.fault .parse) := by
  rcases cfg with ⟨v, a, b, c, d⟩
  cases v <;> cases a <;> cases b <;> cases c <;> cases d <;> decide +kernel

example : InterfaceStatus.WF Sample.wizzilab (.dash7
    ⟨Sample.channel, 70, 80, 90, true, false, true, true, 0xAB, 0xCD, ⟨496, false⟩, Sample.addressee⟩) := by decide

#print axioms C26_size
#print axioms C26_new
#print axioms C26_update
#print axioms C35_is_err_partial
#print axioms C35_unknown_error_violates
#print axioms C47_forward
#print axioms C47_indirect
#print axioms C47_update
#print axioms C47_decoded
#print axioms C25_consumed
#print axioms C25_unknown_partial
#print axioms C25_host_violates
#print axioms C25_dash7_violates
#print axioms C24_exact
#print axioms C24_known_partial
#print axioms C24_unknown_id_violates
#print axioms C24_unknown_partial
#print axioms C24_unknown_violates

end Dash7
