import Verif.Props.Layout

/-!
# C32, C42: hosts and builds
-/

namespace Dash7

/-! ## C32 -/

/-- Actions with a number in the byte order of the host. -/
def Spec.hostOrdered : Action → Bool
  | .writeFileData o | .writeFileDataFlush o | .returnFileData o =>
    match o.data with
    | .nwlSecurityKey _ => true
    | _ => false
  | .forward o =>
    match o.configuration with
    | .loRaWanABP _ => true
    | _ => false
  | .txStatus o =>
    match o.status.status with
    | .dash7 _ => true
    | _ => false
  | _ => false

theorem FileData.write_host (cfg : Cfg) (b b' : Bool) (op : OpCode) (o : Op.FileData)
    (h : ∀ k, o.data ≠ .nwlSecurityKey k) :
    o.write { cfg with bigEndianHost := b } op = o.write { cfg with bigEndianHost := b' } op := by
  obtain ⟨hd, oc, off, data⟩ := o
  cases data <;> first | rfl | exact absurd rfl (h _)

theorem Action.write_host (cfg : Cfg) (b b' : Bool) (a : Action) (h : Spec.hostOrdered a = false) :
    a.write { cfg with bigEndianHost := b } = a.write { cfg with bigEndianHost := b' } := by
  cases a with
  | writeFileData o =>
    exact FileData.write_host _ _ _ _ _ fun k hk => by simp [Spec.hostOrdered, hk] at h
  | writeFileDataFlush o =>
    exact FileData.write_host _ _ _ _ _ fun k hk => by simp [Spec.hostOrdered, hk] at h
  | returnFileData o =>
    exact FileData.write_host _ _ _ _ _ fun k hk => by simp [Spec.hostOrdered, hk] at h
  | forward o =>
    obtain ⟨r, oc, c⟩ := o
    cases c <;> first | rfl | cases h
  | txStatus o =>
    obtain ⟨oc, i, s⟩ := o
    cases s <;> first | rfl | cases h
  | _ => rfl

/-- **C32** for commands without security key files, LoRaWAN ABP configurations and DASH7 TX status: the
encoding is the same on little-endian and big-endian hosts. Missing: these three, see
`C32_security_key_violates` and `C32_abp_violates`. -/
theorem C32_host_independent_partial (cfg : Cfg) (c : Command) (h : ∀ a ∈ c.actions, Spec.hostOrdered a = false) :
    c.toBytes { cfg with bigEndianHost := true } = c.toBytes { cfg with bigEndianHost := false } := by
  obtain ⟨l⟩ := c
  unfold Command.toBytes Command.write W.list
  dsimp only at h ⊢
  congr 2
  exact List.map_congr_left fun a ha => Action.write_host cfg _ _ a (h a ha)

/-- **C32** fails for security key files: the two hosts agree on a key exactly when its bytes read the same
backwards. -/
theorem C32_security_key_violates (cfg : Cfg) (hd : ActionHeader) (k : SecurityKey) :
    let a : Action := .writeFileData ⟨hd, ⟨4⟩, ⟨0x0E, ⟨0⟩⟩, .nwlSecurityKey k⟩
    a.toBytes { cfg with bigEndianHost := true } = a.toBytes { cfg with bigEndianHost := false } ↔
      (Spec.bigEndian 16 k.key.toNat).reverse = Spec.bigEndian 16 k.key.toNat := by
  intro a
  have hp : ∀ big, Wire.action cfg.variant big a = some (BitVec.ofNat 8 (Wire.bits [(1, hd.group.toNat),
      (1, hd.response.toNat), (6, 4)] / 256 ^ 0) :: 0x0E :: 0 :: 16 ::
      (if big then Spec.bigEndian 16 k.key.toNat else (Spec.bigEndian 16 k.key.toNat).reverse)) := by
    intro big
    have hl : ∀ p : List U8, p.length = 16 → Wire.prefixed (some p) = some (16 :: p) := by
      intro p hp
      have : Wire.length (16 % 2 ^ 32) = some [16] := by decide +kernel
      simp only [Wire.prefixed, hp, this, Wire.join, List.append_nil, List.cons_append, List.nil_append]
    have hf : Wire.fileOffset ⟨0x0E, ⟨0⟩⟩ = some [0x0E, 0] := by decide +kernel
    simp only [a, Wire.action, Wire.fileData, Wire.file, Wire.securityKey, Wire.hostNumber]
    rw [hl _ (by cases big <;> simp [Spec.bigEndian_length])]
    simp only [Wire.header, Wire.action1, Wire.byte, Wire.packed, Spec.bigEndian, hf, Wire.join,
      List.append_nil, List.cons_append, List.nil_append]
  rw [C51_action_layout _ _ rfl, C51_action_layout _ _ rfl, hp, hp]
  simp only [Wire.result, Except.ok.injEq, List.cons.injEq, true_and, if_true, Bool.false_eq_true, if_false]
  exact eq_comm

/-- **C32** fails for LoRaWAN ABP configurations. -/
theorem C32_abp_violates (cfg : Cfg) :
    let a : Action := .forward ⟨false, ⟨50⟩, .loRaWanABP ⟨⟨false, false, 1, 2⟩, List.replicate 16 1,
      List.replicate 16 2, 0x01020304, 0⟩⟩
    a.toBytes { cfg with bigEndianHost := true } ≠ a.toBytes { cfg with bigEndianHost := false } := by
  rcases cfg with ⟨v, a, b, c, d⟩
  cases v <;> cases a <;> cases b <;> cases c <;> cases d <;> decide +kernel

/-- **C32** fails for the TX state of a DASH7 interface, which the wizzilab build knows. -/
theorem C32_tx_violates (cfg : Cfg) (hv : cfg.variant = .wizzilab) :
    let a : Action := .txStatus ⟨⟨38⟩, 0xD7, .dash7 ⟨Sample.channel, 80, ⟨0, by decide⟩, 0x11223344,
      Sample.addressee⟩⟩
    (a.toBytes { cfg with bigEndianHost := true }).isOk = true ∧
      a.toBytes { cfg with bigEndianHost := true } ≠ a.toBytes { cfg with bigEndianHost := false } := by
  rcases cfg with ⟨v, a, b, c, d⟩
  cases hv
  cases a <;> cases b <;> cases c <;> cases d <;> decide +kernel

example : Sample.command.actions.all (fun a => !Spec.hostOrdered a) ∧
    (Sample.command.toBytes { Sample.spec with bigEndianHost := true }).isOk := by decide +kernel
/-- A key on which the hosts disagree. -/
example : (Spec.bigEndian 16 0x0102).reverse ≠ Spec.bigEndian 16 0x0102 := by decide +kernel

/-! ## C42 -/

/-- Addressees without the fields of the wizzilab build. -/
def Spec.plainAddressee (a : Addressee) : Bool := a.groupCondition = .any && !a.useVid

/-- Actions without build-specific fields, as seen by a pair of builds: no wizzilab addressing, no final
status, no TX status, and, if just one of the builds is sub-iot, no DASH7 interface configuration, because
there sub-iot lacks the execution delay. -/
def Spec.common (v v' : Variant) : Action → Bool
  | .status o =>
    match o.status with
    | .action _ => true
    | .interface i =>
      match i.status with
      | .dash7 s => Spec.plainAddressee s.addressee
      | _ => true
    | .interfaceFinal _ => false
  | .txStatus _ => false
  | .forward o =>
    match o.configuration with
    | .dash7 c => Spec.plainAddressee c.addressee && decide (v = .subiot) == decide (v' = .subiot)
    | _ => true
  | .indirectForward o =>
    match o.configuration with
    | some (.dash7 a) => Spec.plainAddressee a
    | _ => true
  | _ => true

theorem Addressee.write_build (cfg : Cfg) (v v' : Variant) (a : Addressee) (h : Spec.plainAddressee a = true) :
    a.write { cfg with variant := v } = a.write { cfg with variant := v' } := by
  unfold Addressee.write
  congr 2
  obtain ⟨g, t, u, m, ac, ad, s⟩ := a
  simp only [Spec.plainAddressee, Bool.and_eq_true, decide_eq_true_eq, Bool.not_eq_true'] at h
  obtain ⟨rfl, rfl⟩ := h
  unfold Addressee.writeCtl NlsMethod.write NlsMethod.width
  cases v <;> cases v' <;> cases t <;> cases m <;> first | done | (dsimp only; done) | (dsimp only; decide +kernel)

theorem Action.write_build (cfg : Cfg) (v v' : Variant) (a : Action) (h : Spec.common v v' a = true) :
    a.write { cfg with variant := v } = a.write { cfg with variant := v' } := by
  cases a with
  | status o =>
    obtain ⟨t, oc, s⟩ := o
    cases s with
    | action s => rfl
    | interface i =>
      obtain ⟨t, s⟩ := i
      cases s with
      | dash7 s =>
        have := Addressee.write_build cfg v v' _ h
        simp only [Action.write, Op.StatusOperand.write, Op.Status.write, Op.InterfaceStatusOperation.write,
          InterfaceStatus.write, Dash7InterfaceStatus.write, this]
      | _ => rfl
    | interfaceFinal i => cases h
  | txStatus o => cases h
  | forward o =>
    obtain ⟨r, oc, c⟩ := o
    cases c with
    | dash7 c =>
      simp only [Spec.common, Bool.and_eq_true] at h
      have h1 := Addressee.write_build cfg v v' _ h.1
      have h2 : writeExecutionDelay { cfg with variant := v } c.executionDelayTimeout
          = writeExecutionDelay { cfg with variant := v' } c.executionDelayTimeout := by
        have := h.2
        revert this
        unfold writeExecutionDelay
        cases v <;> cases v' <;> first | (intro _; rfl) | (intro h; cases h)
      simp only [Action.write, Op.Forward.write, InterfaceConfiguration.write,
        Dash7InterfaceConfiguration.write, h1, h2]
    | _ => rfl
  | indirectForward o =>
    obtain ⟨r, oc, c⟩ := o
    cases c with
    | none => rfl
    | some c =>
      cases c with
      | dash7 a =>
        have h1 := Addressee.write_build cfg v v' _ h
        simp only [Action.write, Op.IndirectForward.write, W.opt, IndirectInterface.write, h1]
      | _ => rfl
  | _ => rfl

/-- **C42** Encoding: any two builds encode a command without build-specific fields identically. -/
theorem C42_same_bytes (cfg : Cfg) (v v' : Variant) (c : Command)
    (h : ∀ a ∈ c.actions, Spec.common v v' a = true) :
    c.toBytes { cfg with variant := v } = c.toBytes { cfg with variant := v' } := by
  obtain ⟨l⟩ := c
  unfold Command.toBytes Command.write W.list
  dsimp only at h ⊢
  congr 2
  exact List.map_congr_left fun a ha => Action.write_build cfg _ _ a (h a ha)

theorem Action.WF_build {cfg : Cfg} {v v' : Variant} {a : Action} (h : Spec.common v v' a = true)
    (hw : a.WF { cfg with variant := v }) : a.WF { cfg with variant := v' } := by
  refine ⟨hw.1, ?_⟩
  have hw := hw.2
  have hA : ∀ a : Addressee, Spec.plainAddressee a = true → a.WF { cfg with variant := v } →
      a.WF { cfg with variant := v' } := by
    intro a ha hw
    simp only [Spec.plainAddressee, Bool.and_eq_true, decide_eq_true_eq, Bool.not_eq_true'] at ha
    exact ⟨hw.1, hw.2.1, hw.2.2.1, hw.2.2.2.1, fun _ => ha⟩
  cases a with
  | status o =>
    obtain ⟨t, oc, s⟩ := o
    cases s with
    | action s => exact hw
    | interface i =>
      obtain ⟨t, s⟩ := i
      cases s with
      | dash7 s => exact ⟨hw.1, hw.2.1, hw.2.2.1, hA _ h hw.2.2.2⟩
      | _ => exact hw
    | interfaceFinal i => cases h
  | forward o =>
    obtain ⟨r, oc, c⟩ := o
    cases c with
    | dash7 c =>
      simp only [Spec.common, Bool.and_eq_true, beq_iff_eq, decide_eq_decide] at h
      exact ⟨hw.1, hw.2.1, hA _ h.1 hw.2.2.1, fun hv => hw.2.2.2 (h.2.2 hv)⟩
    | _ => exact hw
  | indirectForward o =>
    obtain ⟨r, oc, c⟩ := o
    refine ⟨hw.1, fun c' hc' => ?_⟩
    have := hw.2 c' hc'
    cases hc'
    cases c' with
    | dash7 a => exact hA _ h this
    | _ => exact this
  | _ => exact hw

/-- **C42** Decoding: what one build encodes, any other decodes to the same command. -/
theorem C42_decodes (cfg : Cfg) (v v' : Variant) (c : Command) (hw : c.WF { cfg with variant := v })
    (h : ∀ a ∈ c.actions, Spec.common v v' a = true) :
    ∃ bytes, c.toBytes { cfg with variant := v } = .ok bytes ∧
      Command.tryFrom { cfg with variant := v' } bytes = .ok c := by
  have hw' : c.WF { cfg with variant := v' } := ⟨fun a ha => Action.WF_build (h a ha) (hw.1 a ha), hw.2⟩
  obtain ⟨bytes, h1, h2⟩ := C01_command_roundtrip { cfg with variant := v' } c hw'
  exact ⟨bytes, (C42_same_bytes cfg v v' c h).trans h1, h2⟩

/-- The execution delay is a build-specific field even when it is zero: sub-iot cannot read the forward
action of the other builds. -/
theorem C42_execution_delay (cfg : Cfg) :
    let c : Command := ⟨[Sample.forward]⟩
    c.toBytes { cfg with variant := .spec } ≠ c.toBytes { cfg with variant := .subiot } ∧
    ∀ bytes, c.toBytes { cfg with variant := .spec } = .ok bytes →
      Command.tryFrom { cfg with variant := .subiot } bytes ≠ .ok c := by
  rcases cfg with ⟨v, a, b, c, d⟩
  refine ⟨by cases v <;> cases a <;> cases b <;> cases c <;> cases d <;> decide +kernel, ?_⟩
  intro bytes h
  have : Command.toBytes ⟨.spec, a, b, c, d⟩ ⟨[Sample.forward]⟩ = .ok
    [0x72, 0xD7, 0x52, 0x1F, 0, 0x27, 0x21, 0, 0x11, 0x22, 0x33, 0x44, 0x55, 0x66, 0x77, 1, 2, 3, 4, 5] := by
    cases a <;> cases b <;> cases c <;> cases d <;> decide +kernel
  have h := this.symm.trans h
  injection h with h
  subst h
  cases v <;> cases a <;> cases b <;> cases c <;> cases d <;> decide +kernel

/-- The sample command without its forward action is common to all builds. -/
example : ∀ v v', ∀ a ∈ [Sample.tag, Sample.readData, Sample.writeData, Sample.query, Sample.dash7Status,
    Sample.indirect], Spec.common v v' a = true := by
  intro v v'
  cases v <;> cases v' <;> decide
/-- All of it to the spec and wizzilab builds. -/
example : (∀ a ∈ Sample.command.actions, Spec.common .spec .wizzilab a = true) ∧
    Sample.command.WF Sample.spec := by decide +kernel

end Dash7

#print axioms Dash7.C32_host_independent_partial
#print axioms Dash7.C32_security_key_violates
#print axioms Dash7.C32_abp_violates
#print axioms Dash7.C32_tx_violates
#print axioms Dash7.C42_same_bytes
#print axioms Dash7.C42_decodes
#print axioms Dash7.C42_execution_delay
