import Verif.Lemmas.Accept6
import Verif.Spec.FrameAccept

/-!
# The readers of the frame headers
-/

namespace Dash7

theorem Fits.flagged {α : Type} {p : P α} {F : α → Form} (b : Bool) (hp : Fits p F) :
    Fits (P.cond b p) (Form.flagged b F) := by
  refine Fits.cond b hp ?_ ?_
  · rintro rfl
    exact ⟨fun _ _ => Iff.rfl, fun _ h => h.2⟩
  · rintro rfl
    exact ⟨fun _ _ h => h.2, fun _ => Iff.rfl⟩

theorem Trans.Control.fits : Fits Trans.Control.read Form.transControl := by
  unfold Trans.Control.read Form.transControl
  refine Fits.start ?_
  fld Fits.flag
  fld Fits.flag
  fld Fits.flag
  fld Fits.flag
  fld Fits.flag
  fld Fits.flag
  fld Fits.flag
  fin

theorem Trans.AckTemplate.fits : Fits Trans.AckTemplate.read Form.ackTemplate := by
  unfold Trans.AckTemplate.read Form.ackTemplate
  refine Fits.start ?_
  fld Fits.u8
  fld Fits.u8
  fin

theorem Trans.Header.fits : Fits Trans.Header.read Form.transHeader := by
  unfold Trans.Header.read Form.transHeader
  refine Fits.start ?_
  apply Fits.cons Trans.Control.fits
  intro c
  fld Fits.u8
  fld Fits.u8
  refine Fits.dep (fun b => b.targetRxLevelI) (Fits.flagged c.hasAgc Fits.u8) ?_ fun _ => ?_
  · rintro b ⟨⟨⟨-, rfl⟩, -⟩, -⟩ c; rfl
  refine Fits.dep (fun b => b.listenTimeout) (Fits.flagged c.hasListenTimeout VarInt.fits) ?_ fun _ => ?_
  · rintro b ⟨⟨⟨⟨-, rfl⟩, -⟩, -⟩, -⟩ c; rfl
  refine Fits.dep (fun b => b.executionDelayTimeout) (Fits.flagged c.hasExecutionDelayTimeout VarInt.fits) ?_
    fun _ => ?_
  · rintro b ⟨⟨⟨⟨⟨-, rfl⟩, -⟩, -⟩, -⟩, -⟩ c; rfl
  refine Fits.dep (fun b => b.congestionTimeout)
    (Fits.flagged (c.isAckRequested && c.isDialogStart) VarInt.fits) ?_ fun _ => ?_
  · rintro b ⟨⟨⟨⟨⟨⟨-, rfl⟩, -⟩, -⟩, -⟩, -⟩, -⟩ c; rfl
  refine Fits.dep (fun b => b.ackTemplate) (Fits.flagged c.isAckNotVoid Trans.AckTemplate.fits) ?_ fun _ => ?_
  · rintro b ⟨⟨⟨⟨⟨⟨⟨-, rfl⟩, -⟩, -⟩, -⟩, -⟩, -⟩, -⟩ c; rfl
  fin

theorem Net.Control.fits (cfg : Cfg) : Fits (Net.Control.read cfg) (Form.netControl cfg.variant) := by
  unfold Net.Control.read Form.netControl
  have e : (if cfg.variant = .wizzilab then 3 else 4) = NlsMethod.width cfg := by
    unfold NlsMethod.width; cases cfg.variant <;> rfl
  rw [e]
  refine Fits.start ?_
  fld Fits.flag
  fld Fits.flag
  fld AddressType.fits
  skp 1
  fld (NlsMethod.fits cfg)
  fin

theorem Net.HoppingControl.fits : Fits Net.HoppingControl.read Form.hopping := by
  unfold Net.HoppingControl.read Form.hopping
  refine Fits.start ?_
  skp 1
  fld Fits.flag
  fld AddressType.fits
  skp 4
  fin

theorem Net.Header.fits (cfg : Cfg) : Fits (Net.Header.read cfg) (Form.netHeader cfg.variant) := by
  unfold Net.Header.read Form.netHeader
  refine Fits.start ?_
  apply Fits.cons (Net.Control.fits cfg)
  intro c
  refine Fits.dep (fun b => b.hoppingControl) (Fits.flagged c.hasHopping Net.HoppingControl.fits) ?_ fun _ => ?_
  · rintro b ⟨-, rfl⟩ c; rfl
  fld AccessClass.fits
  refine Fits.dep (fun b => b.originAccessAddress) (Address.fits c.originAddressType) ?_ fun _ => ?_
  · rintro b ⟨⟨⟨-, rfl⟩, -⟩, -⟩ c; rfl
  fin

theorem ForegroundFrameControl.fits : Fits ForegroundFrameControl.read (fun c =>
    Form.all [Form.field 2 (Wire.addressType c.addressType), Form.field 6 c.eirpIndex.toNat]) := by
  unfold ForegroundFrameControl.read
  refine Fits.start ?_
  fld AddressType.fits
  fld (Fits.uint (show 6 ≤ 8 by decide))
  fin

theorem ForegroundHeader.fits : Fits ForegroundHeader.read Form.foregroundHeader := by
  unfold ForegroundHeader.read Form.foregroundHeader
  refine Fits.start ?_
  fld Length.fits
  fld Fits.u8
  apply Fits.cons ForegroundFrameControl.fits
  intro c
  refine Fits.dep (fun b => b.targetAddress) (Address.fits c.addressType) ?_ fun _ => ?_
  · rintro b ⟨-, rfl⟩ c; rfl
  fin

theorem BackgroundFrameControl.fits : Fits BackgroundFrameControl.read (fun c =>
    Form.all [Form.field 2 (Wire.addressType c.addressType), Form.field 6 c.tagId.toNat]) := by
  unfold BackgroundFrameControl.read
  refine Fits.start ?_
  fld AddressType.fits
  fld (Fits.uint (show 6 ≤ 8 by decide))
  fin

theorem BackgroundFrame.fits (cfg : Cfg) :
    Fits (BackgroundFrame.read cfg) (Form.backgroundFrame cfg.bigEndianHost) := by
  unfold BackgroundFrame.read Form.backgroundFrame
  refine Fits.start ?_
  fld Fits.u8
  fld BackgroundFrameControl.fits
  fld (Fits.host cfg 2)
  fld (Fits.host cfg 2)
  fin

end Dash7
