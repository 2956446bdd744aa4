import Verif.Lemmas.Accept
import Verif.Lemmas.Types

/-!
# Readers and the forms they take: types
-/

namespace Dash7

/-- A field of a structure. -/
macro "fld " h:term : tactic => `(tactic| (apply Fits.cons $h; intro _))
/-- Reserved bits. -/
macro "skp " n:term : tactic => `(tactic| refine Fits.skip (Fits.pad $n) () (fun _ => rfl) ?_)
/-- A table of codes. -/
macro "tbl" : tactic => `(tactic| exact Fits.enum (by decide)
  (fun e => by cases e <;> exact U8.forall (by decide +kernel)))
/-- The end of a structure. -/
macro "fin" : tactic => `(tactic| exact Fits.done (fun b => by cases b; simp [and_assoc]))

theorem VarInt.fits : Fits VarInt.read Form.varInt := by
  unfold VarInt.read
  intro v c s'
  rw [P.bind_eq, (Fits.uint (by decide)).bind_iff]
  simp only [P.bind_eq, (Fits.uint (show 5 ≤ 8 by decide)).bind_iff, Form.varInt, Form.all]
  constructor
  · rintro ⟨e, x, _, rfl, ⟨hx, hv⟩, m, y, z, rfl, ⟨hy, hw⟩, hz⟩
    have he : e.toNat < 8 := by
      have := bitsNat_lt x
      rw [← Form.value_eq, hv, hx] at this; exact this
    have hm : m.toNat < 32 := by
      have := bitsNat_lt y
      rw [← Form.value_eq, hw, hy] at this; exact this
    rw [(decompress_eq he hm).1] at hz
    simp only [P.eval_pure, Except.ok.injEq, Prod.mk.injEq] at hz
    obtain ⟨rfl, hz⟩ := hz
    have : z = [] := by simpa using hz
    subst this
    exact ⟨e.toNat, m.toNat, (decompress_eq he hm).2, rfl, x, y, by simp, ⟨hx, hv⟩, y, [], by simp,
      ⟨hy, hw⟩, rfl⟩
  · rintro ⟨e, m, hv, hc, x, _, rfl, ⟨hx, he⟩, y, _, rfl, ⟨hy, hm⟩, rfl⟩
    have he' : e < 8 := by
      have := bitsNat_lt x
      rw [← Form.value_eq, he, hx] at this; exact this
    have hm' : m < 32 := by
      have := bitsNat_lt y
      rw [← Form.value_eq, hm, hy] at this; exact this
    have h1 : (BitVec.ofNat 8 e).toNat = e := by rw [BitVec.toNat_ofNat, Nat.mod_eq_of_lt (by omega)]
    have h2 : (BitVec.ofNat 8 m).toNat = m := by rw [BitVec.toNat_ofNat, Nat.mod_eq_of_lt (by omega)]
    refine ⟨BitVec.ofNat 8 e, x, y, by simp, ⟨hx, by rw [h1, he]⟩, BitVec.ofNat 8 m, y, [], by simp,
      ⟨hy, by rw [h2, hm]⟩, ?_⟩
    rw [(decompress_eq (by rw [h1]; exact he') (by rw [h2]; exact hm')).1, h1, h2]
    obtain ⟨v, ceil⟩ := v
    subst hc
    simp only [P.eval_pure, List.nil_append, ← hv]
    simp

theorem Length.fits : Fits Length.read (fun l => Form.length l.val.toNat) := by
  unfold Length.read
  intro l c s'
  simp only [P.bind_eq]
  rw [(Fits.uint (show 2 ≤ 8 by decide)).bind_iff]
  simp only [Form.length]
  constructor
  · rintro ⟨k, x, y, rfl, ⟨hx, hv⟩, hy⟩
    have hk : k.toNat < 4 := by
      have := bitsNat_lt x
      rw [← Form.value_eq, hv, hx] at this; exact this
    rw [(Fits.uint (show 6 + k.toNat * 8 ≤ 32 by omega)).bind_iff] at hy
    obtain ⟨v, y1, y2, rfl, hf, hz⟩ := hy
    simp only [P.eval_pure, Except.ok.injEq, Prod.mk.injEq] at hz
    obtain ⟨rfl, hz⟩ := hz
    have : y2 = [] := by simpa using hz
    subst this
    refine ⟨k.toNat, hk, x, y1, by simp, ⟨hx, hv⟩, ?_⟩
    rw [Form.all_one, Nat.mul_comm 8]
    exact hf
  · rintro ⟨k, hk, x, y, rfl, ⟨hx, hv⟩, hy⟩
    rw [Form.all_one] at hy
    have h1 : (BitVec.ofNat 8 k).toNat = k := by rw [BitVec.toNat_ofNat, Nat.mod_eq_of_lt (by omega)]
    refine ⟨BitVec.ofNat 8 k, x, y, rfl, ⟨hx, by rw [h1, hv]⟩, ?_⟩
    rw [h1, (Fits.uint (show 6 + k * 8 ≤ 32 by omega)).bind_iff]
    exact ⟨l.val, y, [], by simp, by rwa [Nat.mul_comm], rfl⟩

theorem FileOffset.fits : Fits FileOffset.read Form.fileOffset := by
  unfold FileOffset.read Form.fileOffset
  refine Fits.start ?_
  fld Fits.u8
  fld Length.fits
  fin

/-! ## Physical layer -/

theorem ChannelBand.fits : Fits ChannelBand.read (fun b => Form.field 3 (Wire.channelBand b)) := by tbl
theorem ChannelClass.fits : Fits ChannelClass.read (fun b => Form.field 2 (Wire.channelClass b)) := by tbl
theorem ChannelCoding.fits : Fits ChannelCoding.read (fun b => Form.field 2 (Wire.channelCoding b)) := by tbl
theorem Bandwidth.fits : Fits Bandwidth.read (fun b => Form.field 2 (Wire.bandwidth b)) := by tbl

theorem ChannelHeader.fits : Fits ChannelHeader.read Form.channelHeader := by
  unfold ChannelHeader.read Form.channelHeader
  refine Fits.start ?_
  skp 1
  fld ChannelBand.fits
  fld ChannelClass.fits
  fld ChannelCoding.fits
  fin

theorem Channel.fits : Fits Channel.read Form.channel := by
  unfold Channel.read Form.channel
  refine Fits.start ?_
  fld ChannelHeader.fits
  fld Fits.u16
  fin

theorem ChannelStatusIdentifier.fits : Fits ChannelStatusIdentifier.read (fun c =>
    Form.all [Form.field 3 (Wire.channelBand c.band), Form.field 2 (Wire.bandwidth c.bandwidth),
      Form.field 11 c.index.toNat]) := by
  unfold ChannelStatusIdentifier.read
  refine Fits.start ?_
  fld ChannelBand.fits
  fld Bandwidth.fits
  fld (Fits.uint (show 11 ≤ 16 by decide))
  fin

theorem ChannelStatus.fits : Fits ChannelStatus.read Form.channelStatus := by
  unfold ChannelStatus.read Form.channelStatus
  refine Fits.start ?_
  fld ChannelStatusIdentifier.fits
  fld Fits.u8
  fin

theorem SubBand.fits : Fits SubBand.read Form.subBand := by
  unfold SubBand.read Form.subBand
  refine Fits.start ?_
  fld Fits.u16
  fld Fits.u16
  fld Fits.u8
  fld Fits.u8
  fld Fits.u8
  fin

/-! ## Link and network layer -/

theorem SubProfile.fits : Fits SubProfile.read Form.subProfile := by
  unfold SubProfile.read Form.subProfile
  refine Fits.start ?_
  fld Fits.u8
  fld VarInt.fits
  fin

theorem AccessClass.fits : Fits AccessClass.read Form.accessClass := by
  unfold AccessClass.read Form.accessClass
  refine Fits.start ?_
  fld (Fits.uint (show 4 ≤ 8 by decide))
  fld (Fits.uint (show 4 ≤ 8 by decide))
  fin

theorem AccessProfile.fits : Fits AccessProfile.read Form.accessProfile := by
  unfold AccessProfile.read Form.accessProfile
  refine Fits.start ?_
  fld ChannelHeader.fits
  fld (Fits.array SubProfile.fits 4)
  fld (Fits.array SubBand.fits 8)
  fin

theorem GroupCondition.fits : Fits GroupCondition.read (fun b => Form.field 2 (Wire.groupCondition b)) := by tbl
theorem AddressType.fits : Fits AddressType.read (fun b => Form.field 2 (Wire.addressType b)) := by tbl
theorem NlsMethod.fits (cfg : Cfg) :
    Fits (NlsMethod.read cfg) (fun m => Form.field (NlsMethod.width cfg) (Wire.nlsMethod m)) := by
  unfold NlsMethod.read NlsMethod.width
  cases cfg.variant <;> tbl

theorem Address.fits (t : AddressType) : Fits (Address.read t) (Form.address t) := by
  cases t with
  | nbId => exact Fits.map VarInt.fits fun a c => by cases a <;> simp [Form.address, Form.given]
  | noId => exact Fits.pure fun a c => by cases a <;> simp [Form.address, Form.given, Form.all]
  | uId => exact Fits.map Fits.u64 fun a c => by cases a <;> simp [Form.address, Form.given]
  | vId => exact Fits.map Fits.u16 fun a c => by cases a <;> simp [Form.address, Form.given]

theorem NlsState.fits (m : NlsMethod) : Fits (NlsState.read m) (Form.nlsState m) := by
  cases m with
  | none => exact Fits.pure fun a c => by cases a <;> simp [Form.nlsState, Form.given, Form.all]
  | _ => exact Fits.map (Fits.bytes5 5) fun a c => by cases a <;> simp [Form.nlsState, Form.given]

end Dash7
