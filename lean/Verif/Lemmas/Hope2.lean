import Verif.Lemmas.Hope

/-!
# Which readers more input can complete
-/

namespace Dash7

theorem SubProfile.hope : Hope 0 0 SubProfile.read := by unfold SubProfile.read; hope
macro_rules | `(tactic| hope_leaf) => `(tactic| with_reducible exact Hope.at SubProfile.hope (by decide))
theorem SubBand.hope : Hope 0 0 SubBand.read := by unfold SubBand.read; hope
macro_rules | `(tactic| hope_leaf) => `(tactic| with_reducible exact Hope.at SubBand.hope (by decide))
theorem AccessProfile.hope : Hope 0 0 AccessProfile.read := by unfold AccessProfile.read; hope
macro_rules | `(tactic| hope_leaf) => `(tactic| with_reducible exact Hope.at AccessProfile.hope (by decide))
theorem FactorySettings.hope : Hope 0 0 FactorySettings.read := by unfold FactorySettings.read; hope
macro_rules | `(tactic| hope_leaf) => `(tactic| with_reducible exact Hope.at FactorySettings.hope (by decide))
theorem EngineeringMode.hope : Hope 0 0 EngineeringMode.read := by
  unfold EngineeringMode.read EngineeringModeMethod.read; hope
macro_rules | `(tactic| hope_leaf) => `(tactic| with_reducible exact Hope.at EngineeringMode.hope (by decide))
theorem DllConfig.hope : Hope 0 0 DllConfig.read := by unfold DllConfig.read; hope
macro_rules | `(tactic| hope_leaf) => `(tactic| with_reducible exact Hope.at DllConfig.hope (by decide))
theorem DllStatus.hope : Hope 0 0 DllStatus.read := by unfold DllStatus.read; hope
macro_rules | `(tactic| hope_leaf) => `(tactic| with_reducible exact Hope.at DllStatus.hope (by decide))
theorem SecurityKey.hope (cfg : Cfg) : Hope 0 0 (SecurityKey.read cfg) := by unfold SecurityKey.read; hope
macro_rules | `(tactic| hope_leaf) => `(tactic| with_reducible exact Hope.at (SecurityKey.hope _) (by decide))
theorem ChannelStatusIdentifier.hope : Hope 0 0 ChannelStatusIdentifier.read := by
  unfold ChannelStatusIdentifier.read ChannelBand.read Bandwidth.read
  hope
macro_rules | `(tactic| hope_leaf) => `(tactic| with_reducible exact Hope.at ChannelStatusIdentifier.hope (by decide))
theorem ChannelStatus.hope : Hope 0 0 ChannelStatus.read := by unfold ChannelStatus.read; hope
macro_rules | `(tactic| hope_leaf) => `(tactic| with_reducible exact Hope.at ChannelStatus.hope (by decide))

/-- A list of entries of whole bytes. -/
theorem Hope.countAt {α : Type} {k : Nat} {p : P α} (h : Hope 0 0 p) (hk : k % 8 = 0) (n : Nat) :
    Hope k k (p.count n) :=
  Hope.count (Hope.end (Hope.at h hk) (by omega)) n
theorem Hope.bytes {k : Nat} (n : Nat) : Hope k k (P.count P.u8 n) :=
  Hope.count (Hope.end Hope.u8 (by omega)) n
theorem Hope.bytesA {k : Nat} (n : Nat) : Hope k k (P.array P.u8 n) :=
  Hope.array (Hope.end Hope.u8 (by omega)) n
macro_rules | `(tactic| hope_leaf) => `(tactic| with_reducible exact Hope.bytes _)
macro_rules | `(tactic| hope_leaf) => `(tactic| with_reducible exact Hope.bytesA _)

theorem PhyStatus.hope : Hope 0 0 PhyStatus.read := by
  unfold PhyStatus.read
  simp only [P.bind_eq]
  apply Hope.end
  · refine Hope.bind (Hope.uint (by decide)) fun _ => Hope.bind (Hope.uint (by decide)) fun _ =>
      Hope.bind (Hope.uint (by decide)) fun _ => Hope.bind (Hope.uint (by decide)) fun _ =>
      Hope.bind Hope.u8 fun _ => Hope.bind (Hope.countAt ChannelStatus.hope (by decide) _) fun _ => Hope.pure
  · decide
macro_rules | `(tactic| hope_leaf) => `(tactic| with_reducible exact Hope.at PhyStatus.hope (by decide))

theorem AccessClass.hope : Hope 0 0 AccessClass.read := by unfold AccessClass.read; hope
macro_rules | `(tactic| hope_leaf) => `(tactic| with_reducible exact Hope.at AccessClass.hope (by decide))

theorem Address.hope : ∀ t, Hope 0 0 (Address.read t) := by
  intro t
  cases t <;> unfold Address.read <;> hope
macro_rules | `(tactic| hope_leaf) => `(tactic| with_reducible exact Hope.at (Address.hope _) (by decide))

theorem NlsState.hope : ∀ m, Hope 0 0 (NlsState.read m) := by
  intro m
  cases m <;> unfold NlsState.read <;> hope
macro_rules | `(tactic| hope_leaf) => `(tactic| with_reducible exact Hope.at (NlsState.hope _) (by decide))

theorem Addressee.hope (cfg : Cfg) : Hope 0 0 (Addressee.read cfg) := by
  obtain ⟨v, b, e, c, u⟩ := cfg
  cases v <;> unfold Addressee.read <;> simp only [P.bind_eq]
  all_goals
    apply Hope.end
    · apply Hope.bind
      · first
        | unfold Addressee.readCtlWizzilab
        | unfold Addressee.readCtl
        unfold AddressType.read NlsMethod.read NlsMethod.width
        try unfold GroupCondition.read
        simp only [P.bind_eq]
        hope_run
      · hope_run
    · decide
macro_rules | `(tactic| hope_leaf) => `(tactic| with_reducible exact Hope.at (Addressee.hope _) (by decide))

theorem QoS.hope : Hope 0 0 QoS.read := by unfold QoS.read RetryMode.read ResponseMode.read; hope
macro_rules | `(tactic| hope_leaf) => `(tactic| with_reducible exact Hope.at QoS.hope (by decide))
theorem readExecutionDelay_hope (cfg : Cfg) : Hope 0 0 (readExecutionDelay cfg) := by
  unfold readExecutionDelay
  split <;> hope
macro_rules | `(tactic| hope_leaf) => `(tactic| with_reducible exact Hope.at (readExecutionDelay_hope _) (by decide))
theorem Dash7InterfaceConfiguration.hope (cfg : Cfg) : Hope 0 0 (Dash7InterfaceConfiguration.read cfg) := by
  unfold Dash7InterfaceConfiguration.read; hope
macro_rules
  | `(tactic| hope_leaf) => `(tactic| with_reducible exact Hope.at (Dash7InterfaceConfiguration.hope _) (by decide))
theorem LoRaWANInterfaceConfiguration.hope : Hope 0 0 LoRaWANInterfaceConfiguration.read := by
  unfold LoRaWANInterfaceConfiguration.read; hope
macro_rules
  | `(tactic| hope_leaf) => `(tactic| with_reducible exact Hope.at LoRaWANInterfaceConfiguration.hope (by decide))
theorem LoRaWANOTAAInterfaceConfiguration.hope : Hope 0 0 LoRaWANOTAAInterfaceConfiguration.read := by
  unfold LoRaWANOTAAInterfaceConfiguration.read; hope
macro_rules
  | `(tactic| hope_leaf) => `(tactic| with_reducible exact Hope.at LoRaWANOTAAInterfaceConfiguration.hope (by decide))
theorem LoRaWANABPInterfaceConfiguration.hope (cfg : Cfg) : Hope 0 0 (LoRaWANABPInterfaceConfiguration.read cfg) := by
  unfold LoRaWANABPInterfaceConfiguration.read; hope
macro_rules
  | `(tactic| hope_leaf) => `(tactic| with_reducible exact Hope.at (LoRaWANABPInterfaceConfiguration.hope _) (by decide))
attribute [local irreducible] LoRaWANInterfaceConfiguration.read LoRaWANOTAAInterfaceConfiguration.read
  LoRaWANABPInterfaceConfiguration.read Dash7InterfaceConfiguration.read Addressee.read

theorem InterfaceConfiguration.hope (cfg : Cfg) : Hope 0 0 (InterfaceConfiguration.read cfg) := by
  unfold InterfaceConfiguration.read
  simp only [P.bind_eq]
  refine Hope.bind Hope.u8 fun i => ?_
  split <;> hope
macro_rules
  | `(tactic| hope_leaf) => `(tactic| with_reducible exact Hope.at (InterfaceConfiguration.hope _) (by decide))
theorem IndirectInterface.hope (cfg : Cfg) : Hope 0 0 (IndirectInterface.read cfg) := by
  unfold IndirectInterface.read
  simp only [P.bind_eq]
  refine Hope.bind Hope.u8 fun i => ?_
  split <;> hope
macro_rules
  | `(tactic| hope_leaf) => `(tactic| with_reducible exact Hope.at (IndirectInterface.hope _) (by decide))

theorem FileOffset.hope : Hope 0 0 FileOffset.read := by unfold FileOffset.read; hope
macro_rules | `(tactic| hope_leaf) => `(tactic| with_reducible exact Hope.at FileOffset.hope (by decide))

/-! ## Queries -/

theorem readMaskIf_hope {k : Nat} (b : Bool) (l : Length) : Hope k k (readMaskIf b l) := by
  unfold readMaskIf
  split
  · exact Hope.bytes _
  · exact Hope.pure
macro_rules | `(tactic| hope_leaf) => `(tactic| with_reducible exact readMaskIf_hope _ _)

theorem ArithmeticQueryParams.hope : Hope 4 0 ArithmeticQueryParams.read := by
  unfold ArithmeticQueryParams.read ArithmeticComparisonType.read; hope
macro_rules | `(tactic| hope_leaf) => `(tactic| with_reducible exact Hope.at ArithmeticQueryParams.hope (by decide))
theorem RangeQueryParams.hope : Hope 4 0 RangeQueryParams.read := by
  unfold RangeQueryParams.read RangeComparisonType.read; hope
macro_rules | `(tactic| hope_leaf) => `(tactic| with_reducible exact Hope.at RangeQueryParams.hope (by decide))

theorem Query.hope : Hope 0 0 Query.read := by
  unfold Query.read
  simp only [P.bind_eq]
  refine Hope.bindG (Hope.uintG (G := fun i => i.toNat = 0 ∨ i.toNat = 1 ∨ i.toNat = 2 ∨ i.toNat = 3 ∨ i.toNat = 4 ∨
    i.toNat = 7) (by decide) 0 (by decide) (by decide)) (fun i hi => ?_) fun i hi s _ => ?_
  · split
    · unfold NonVoid.read; hope
    · unfold ComparisonWithZero.read; hope
    · unfold ComparisonWithValue.read; hope
    · unfold ComparisonWithOtherFile.read; hope
    · unfold BitmapRangeComparison.read; hope
    · unfold StringTokenSearch.read; hope
    · rcases hi with h | h | h | h | h | h <;> contradiction
  · split
    · exact absurd (.inl (by assumption)) hi
    · exact absurd (.inr (.inl (by assumption))) hi
    · exact absurd (.inr (.inr (.inl (by assumption)))) hi
    · exact absurd (.inr (.inr (.inr (.inl (by assumption))))) hi
    · exact absurd (.inr (.inr (.inr (.inr (.inl (by assumption)))))) hi
    · exact absurd (.inr (.inr (.inr (.inr (.inr (by assumption)))))) hi
    · exact ⟨_, rfl⟩
macro_rules | `(tactic| hope_leaf) => `(tactic| with_reducible exact Hope.at Query.hope (by decide))

end Dash7
