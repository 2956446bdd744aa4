import Verif.Spec.Frames
import Verif.Lemmas.Derived

/-!
# Frames: their fixed parts
-/

namespace Dash7

theorem Trans.AckTemplate.rt (t : Trans.AckTemplate) : RT read t.write t := by
  unfold read write; rt

theorem Trans.Control.rt (c : Trans.Control) : RT read c.write c := by
  unfold read write; rt

theorem Trans.Header.rt {h : Trans.Header} (hw : h.WF) : RT read h.write h := by
  obtain ⟨h1, h2, h3, h4, h5, v1, v2, v3⟩ := hw
  unfold read write
  refine RT.cons (Trans.Control.rt _) ?_
  refine RT.cons (RT.u8 _) (RT.cons (RT.u8 _) ?_)
  refine RT.cons (RT.cond h1.symm fun _ _ => RT.u8 _) ?_
  refine RT.cons (RT.cond h2.symm fun _ h => VarInt.rt (v1 _ h)) ?_
  refine RT.cons (RT.cond h3.symm fun _ h => VarInt.rt (v2 _ h)) ?_
  refine RT.cons (RT.cond h4.symm fun _ h => VarInt.rt (v3 _ h)) ?_
  refine RT.cons (RT.cond h5.symm fun _ _ => Trans.AckTemplate.rt _) ?_
  exact RT.pure _

theorem Trans.Header.mod8 (h : Trans.Header) : Mod8 h.write 7 := by
  have hc : Mod8 h.control.write 7 := by unfold Trans.Control.write; mod8 []
  unfold write
  mod8 [hc, Mod8.opt (fun _ => Mod8.u8) _, Mod8.opt VarInt.mod8 _,
    Mod8.opt (fun t => by unfold Trans.AckTemplate.write; mod8 []) _]

theorem Net.Control.rt (cfg : Cfg) (c : Net.Control) : RT (read cfg) (c.write cfg) c := by
  unfold read write
  refine RT.cons (RT.flag _) (RT.cons (RT.flag _) (RT.cons (AddressType.rt _) (RT.cons (RT.pad _)
    (RT.cons (NlsMethod.rt cfg _) (RT.pure _)))))

theorem Net.HoppingControl.rt (c : Net.HoppingControl) : RT read c.write c := by
  unfold read write
  exact RT.cons (RT.pad _) (RT.cons (RT.flag _) (RT.cons (AddressType.rt _) (RT.cons (RT.pad _) (RT.pure _))))

theorem Net.Header.rt {cfg : Cfg} {h : Net.Header} (hw : h.WF) : RT (read cfg) (h.write cfg) h := by
  obtain ⟨h1, h2, h3, h4⟩ := hw
  unfold read write
  refine RT.cons (Net.Control.rt cfg _) (RT.cons (RT.cond h1.symm fun _ _ => Net.HoppingControl.rt _)
    (RT.cons (AccessClass.rt h2) (RT.cons ?_ (RT.pure _))))
  rw [← h3]
  exact Address.rt h4

theorem Net.Header.mod8 {cfg : Cfg} (h : Net.Header) :
    Mod8 (h.write cfg) (if cfg.variant = .wizzilab then 0 else 1) := by
  have hc : Mod8 (h.control.write cfg) (if cfg.variant = .wizzilab then 0 else 1) := by
    have hm : Mod8 (h.control.nlsMethod.write cfg) (NlsMethod.width cfg) := Mod8.uint
    unfold Net.Control.write AddressType.write
    refine Mod8.mono (Mod8.cons .flag (.cons .flag (.cons .uint (.cons .pad (.cons hm .nil))))) ?_
    unfold NlsMethod.width
    cases cfg.variant <;> rfl
  have hh : ∀ c : Net.HoppingControl, Mod8 c.write 0 := by
    intro c
    unfold Net.HoppingControl.write AddressType.write
    mod8 []
  unfold write
  exact Mod8.mono (Mod8.cons hc (.cons (.opt hh _) (.cons (AccessClass.mod8 _)
    (.cons (Address.mod8 _) .nil)))) (by omega)

theorem ForegroundFrameControl.rt {c : ForegroundFrameControl} (h : c.eirpIndex.toNat < 64) :
    RT read c.write c := by
  unfold read write
  exact RT.cons (AddressType.rt _) (RT.cons (RT.uint (by omega) h) (RT.pure _))

theorem ForegroundHeader.rt {h : ForegroundHeader} (hw : h.WF) : RT read h.write h := by
  obtain ⟨h1, h2, h3, h4⟩ := hw
  unfold read write
  refine RT.cons (Length.rt h1) (RT.cons (RT.u8 _) (RT.cons (ForegroundFrameControl.rt h2)
    (RT.cons ?_ (RT.pure _))))
  rw [← h3]
  exact Address.rt h4

theorem ForegroundHeader.mod8 (h : ForegroundHeader) : Mod8 h.write 0 := by
  have hc : Mod8 h.control.write 0 := by
    unfold ForegroundFrameControl.write AddressType.write; mod8 []
  unfold write
  mod8 [hc, Length.mod8 _, Address.mod8 _]

theorem BackgroundFrame.rt {cfg : Cfg} {f : BackgroundFrame} (h : f.WF) :
    RT (read cfg) (f.write cfg) f := by
  have hc : RT BackgroundFrameControl.read f.control.write f.control := by
    unfold BackgroundFrameControl.read BackgroundFrameControl.write
    exact RT.cons (AddressType.rt _) (RT.cons (RT.uint (by omega) h) (RT.pure _))
  unfold read write
  rt

theorem BackgroundFrame.mod8 (cfg : Cfg) (f : BackgroundFrame) : Mod8 (f.write cfg) 0 := by
  have hc : Mod8 f.control.write 0 := by
    unfold BackgroundFrameControl.write AddressType.write; mod8 []
  unfold write
  mod8 [hc]

theorem BackgroundFrame.post (cfg : Cfg) : Post (read cfg) fun f n => f.WF ∧ n = 48 := by
  have hc : Post BackgroundFrameControl.read fun c n => c.tagId.toNat < 64 ∧ n = 8 := by
    unfold BackgroundFrameControl.read
    refine Post.bind AddressType.post fun _ _ ⟨_, h1⟩ => Post.bind Post.uint fun _ _ h => Post.pure ⟨h.2.2.1, ?_⟩
    omega
  unfold read
  refine Post.bind Post.u8 fun _ _ h1 => Post.bind hc fun _ _ h2 => Post.bind Post.uintHost fun _ _ h3 =>
    Post.bind Post.uintHost fun _ _ h4 => Post.pure ⟨h2.1, ?_⟩
  omega

end Dash7
