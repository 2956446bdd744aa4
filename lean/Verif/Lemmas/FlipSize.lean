import Verif.Spec.Size
import Verif.Lemmas.Flip2

/-!
# There is one mark for every bit
-/

namespace Dash7

open Ignored (heed skip)

/-- Eight marks for each byte. -/
def Marked (o : Option Nat) (m : List Bool) : Prop := ∀ n, o = some n → m.length = 8 * n

namespace Marked

theorem cast {o o' : Option Nat} {m m' : List Bool} (h : Marked o m) (e : o = o') (e' : m.length = m'.length) :
    Marked o' m' := by
  subst e; intro n hn; rw [← e']; exact h n hn

theorem heed (k : Nat) : Marked (some k) (heed (8 * k)) := by
  intro n hn; cases hn; simp [Ignored.heed]

theorem nil : Marked (some 0) [] := by intro n hn; cases hn; rfl

theorem snil : Marked (Size.sum []) [] := nil

theorem cons {o : Option Nat} {os : List (Option Nat)} {m ms : List Bool} (h : Marked o m) (hs : Marked (Size.sum os) ms) :
    Marked (Size.sum (o :: os)) (m ++ ms) := by
  intro n hn
  cases o with
  | none => cases hn
  | some a =>
    simp only [Size.sum] at hn
    cases hb : Size.sum os with
    | none => rw [hb] at hn; cases hn
    | some b =>
      rw [hb] at hn
      cases hn
      rw [List.length_append, h a rfl, hs b hb]; omega

theorem last {o : Option Nat} {m : List Bool} (h : Marked o m) : Marked (Size.sum [o]) m :=
  (cons h snil).cast rfl (by simp)

theorem lengthExtra {n k : Nat} (h : Size.length n = some k) : k = 1 + Spec.lengthExtra n := by
  have e6 : (2 : Nat) ^ 6 = 64 := rfl
  have e14 : (2 : Nat) ^ 14 = 16384 := rfl
  have e22 : (2 : Nat) ^ 22 = 4194304 := rfl
  unfold Size.length at h
  unfold Spec.lengthExtra
  rw [e6, e14, e22]
  by_cases h1 : n < 64
  · rw [if_pos h1] at h; rw [if_pos h1]; cases h; rfl
  · rw [if_neg h1] at h; rw [if_neg h1]
    by_cases h2 : n < 16384
    · rw [if_pos h2] at h; rw [if_pos h2]; cases h; rfl
    · rw [if_neg h2] at h; rw [if_neg h2]
      by_cases h3 : n < 4194304
      · rw [if_pos h3] at h; rw [if_pos h3]; cases h; rfl
      · rw [if_neg h3] at h; rw [if_neg h3]
        split at h <;> cases h; rfl

theorem length (n : Nat) : Marked (Size.length n) (Ignored.length n) := by
  intro k hk
  rw [lengthExtra hk]; simp [Ignored.length, Ignored.heed]

theorem size (n : Nat) : Marked (Size.length n) (Ignored.size n) := by
  intro k hk
  rw [lengthExtra hk]; simp [Ignored.size, Ignored.heed, Ignored.skip]; omega

theorem varInt (v : VarInt) : Marked (Size.compressed v) (Ignored.varInt v) := by
  intro n hn
  rw [Tight.varInt_length]
  unfold Size.compressed at hn
  split at hn <;> cases hn
  rfl

/-- Behind its length. -/
theorem sized {o : Option Nat} {m : List Bool} (h : Marked o m) (hl : m.length / 8 < 4294967296) :
    Marked (Size.prefixed o) (Ignored.sized m) := by
  cases o with
  | none => intro n hn; cases hn
  | some a =>
    have ha := h a rfl
    have : m.length / 8 = a := by omega
    unfold Ignored.sized
    rw [this]
    have : a % 4294967296 = a := Nat.mod_eq_of_lt (by omega)
    simp only [Size.prefixed, this]
    exact cons (size a) (last h)

theorem counted (b : List U8) (hl : b.length < 4294967296) :
    Marked (Size.prefixed (some b.length)) (Ignored.length b.length ++ Ignored.heed (8 * b.length)) := by
  simp only [Size.prefixed, Nat.mod_eq_of_lt hl]
  exact cons (length _) (last (heed _))

theorem address (a : Address) : Marked (Size.address a) (Ignored.address a) := by
  cases a with
  | nbId n => exact varInt n
  | noId => exact nil
  | uId _ => exact heed 8
  | vId _ => exact heed 2

theorem nlsState (a : NlsState) : Marked (some (Size.secured a)) (Ignored.nlsState a) := by
  cases a <;> first | exact nil | exact heed 5

theorem addressee (v : Variant) (a : Addressee) : Marked (Size.addressee a) (Ignored.addressee v a) := by
  refine (cons (heed 2) (cons (address a.address) (last (nlsState a.nlsState)))).cast rfl ?_
  unfold Ignored.addressee
  have h3 : (if v = .wizzilab then Ignored.heed 8 else skip 2 ++ Ignored.heed 6).length = 8 := by split <;> rfl
  simp only [List.length_append, h3]
  simp [Ignored.heed]
  omega

theorem fileOffset (f : FileOffset) : Marked (Size.fileOffset f) (Ignored.fileOffset f) :=
  cons (heed 1) (last (length _))

theorem content (f : File) : Marked (Size.file f) (Ignored.content f) := by
  cases f with
  | accessProfile i p =>
    intro n hn
    simp only [Size.file] at hn
    split at hn <;> cases hn
    have : ∀ l : List SubProfile, (l.flatMap Ignored.subProfile).length = 16 * l.length := by
      intro l
      induction l with
      | nil => rfl
      | cons a l ih =>
        rw [List.flatMap_cons, List.length_append, ih, Ignored.subProfile, List.length_append, Tight.varInt_length]
        simp [Ignored.heed]; omega
    simp only [Ignored.content, Ignored.accessProfile, this, Ignored.channelHeader, Ignored.heed, skip,
      List.length_append, List.length_replicate, Vector.length_toList]
  | uId a => exact address a
  | vId a => exact address a
  | factorySettings => exact heed 56
  | firmwareVersion => exact heed 15
  | engineeringMode => exact (heed 7).cast rfl rfl
  | phyStatus p => exact (heed _).cast rfl (by simp [Ignored.content, Ignored.heed]; omega)
  | dllConfig => exact (heed 7).cast rfl rfl
  | dllStatus => exact (heed 16).cast rfl rfl
  | nwlSecurityKey => exact heed 16
  | other d => exact heed _

theorem content_small (f : File) (h : ∀ p, f = .phyStatus p → p.channelStatus.length < 256)
    (h' : ∀ d, f = .other d → d.length < 1073741824) : (Ignored.content f).length / 8 < 4294967296 := by
  have ha : ∀ a, (Ignored.address a).length / 8 < 4294967296 := by
    intro a
    cases a with
    | nbId n => show (Ignored.varInt n).length / 8 < _; rw [Tight.varInt_length]; omega
    | _ => simp [Ignored.address, Ignored.heed]
  cases f with
  | accessProfile i p =>
    have h4 : (p.subProfiles.toList.flatMap Ignored.subProfile).length = 64 := by
      have : ∀ l : List SubProfile, (l.flatMap Ignored.subProfile).length = 16 * l.length := by
        intro l
        induction l with
        | nil => rfl
        | cons a l ih =>
          rw [List.flatMap_cons, List.length_append, ih, Ignored.subProfile, List.length_append, Tight.varInt_length]
          simp [Ignored.heed]; omega
      rw [this]; simp
    simp only [Ignored.content, Ignored.accessProfile, List.length_append, h4, Ignored.channelHeader, Ignored.heed,
      skip, List.length_replicate]
    omega
  | phyStatus p =>
    have := h p rfl
    simp only [Ignored.content, Ignored.heed, List.length_replicate]
    omega
  | other d =>
    have := h' d rfl
    simp only [Ignored.content, Ignored.heed, List.length_replicate]
    omega
  | uId a => exact ha a
  | vId a => exact ha a
  | _ =>
    simp only [Ignored.content, Ignored.channel, Ignored.channelHeader, Ignored.heed, skip, List.length_append,
      List.length_replicate]
    omega

theorem file (i : FileId) (f : File) (hw : f.WF i) : Marked (Size.prefixed (Size.file f)) (Ignored.file f) := by
  have e30 : (2 : Nat) ^ 30 = 1073741824 := rfl
  have hs := content_small f (by
    rintro p rfl
    have := hw.2.1
    rw [← this]; exact p.channelStatusListLength.isLt) (by rintro d rfl; have := hw.2; omega)
  have h := sized (content f) hs
  cases f with
  | other d => exact counted d (by have := hw.2; omega)
  | _ => exact h

theorem dash7InterfaceStatus (v : Variant) (s : Dash7InterfaceStatus) :
    Marked (Size.interfaceStatus (.dash7 s)) (Ignored.dash7InterfaceStatus v s) := by
  refine (cons (heed 9) (cons (varInt s.responseTimeout) (last (addressee v s.addressee)))).cast rfl ?_
  simp [Ignored.dash7InterfaceStatus, Ignored.channel, Ignored.channelHeader, Ignored.heed, skip]

theorem interfaceStatus (cfg : Cfg) (o : Op.InterfaceStatusOperation) (hw : (Op.Status.interface o).WF cfg) :
    Marked (Size.status (.interface o)) (Ignored.interfaceStatus cfg.variant o.status) := by
  have e30 : (2 : Nat) ^ 30 = 1073741824 := rfl
  obtain ⟨t, s⟩ := o
  obtain ⟨ht, hw⟩ := hw
  cases s with
  | host => cases ht; exact cons (heed 1) (last (sized nil (by decide)))
  | serial => cases ht; exact cons (heed 1) (last (sized nil (by decide)))
  | dash7 s =>
    cases ht
    exact cons (heed 1) (last (sized (dash7InterfaceStatus _ s) (by
      have := Tight.dash7InterfaceStatus_length cfg.variant s
      omega)))
  | other b =>
    cases ht
    have := hw.2.2.1
    exact (cons nil (last (counted b (by omega)))).cast rfl rfl

theorem interfaceFinalStatus (i : U8) (s : InterfaceFinalStatus) (hw : s.WF i) :
    Marked (Size.sum [some 1, Size.prefixed (some (Size.interfaceFinalStatus s))])
      (Ignored.heed 8 ++ Ignored.interfaceFinalStatus s) := by
  have e30 : (2 : Nat) ^ 30 = 1073741824 := rfl
  cases s with
  | dash7 c => exact cons (heed 1) (last (sized (heed 1) (by decide)))
  | other b => have := hw.2; exact cons (heed 1) (last (counted b (by omega)))

theorem interfaceConfiguration (cfg : Cfg) (c : InterfaceConfiguration) (hw : c.WF cfg) :
    Marked (Size.interfaceConfiguration cfg.variant c) (Ignored.interfaceConfiguration cfg.variant c) := by
  cases c with
  | host => exact heed 1
  | serial => exact heed 1
  | loRaWanABP c =>
    obtain ⟨h1, h2⟩ := hw
    exact (heed (12 + 16 + 16)).cast (by simp [Size.interfaceConfiguration, h1, h2]) (by
      simp only [Ignored.interfaceConfiguration, Ignored.loRaWAN, Ignored.heed, skip, List.length_append, List.length_replicate])
  | loRaWanOTAA c =>
    obtain ⟨h1, h2, h3⟩ := hw
    exact (heed (4 + 8 + 8 + 16)).cast (by simp [Size.interfaceConfiguration, h1, h2, h3]) (by
      simp only [Ignored.interfaceConfiguration, Ignored.loRaWAN, Ignored.heed, skip, List.length_append, List.length_replicate])
  | dash7 c =>
    have he : Marked (if cfg.variant = .subiot then some 0 else Size.compressed c.executionDelayTimeout)
        (if cfg.variant = .subiot then [] else Ignored.varInt c.executionDelayTimeout) := by
      split
      · exact nil
      · exact varInt _
    exact (cons (heed 2) (cons (varInt _) (cons he (last (addressee cfg.variant c.addressee))))).cast rfl (by
      simp [Ignored.interfaceConfiguration])
  | unknown i => exact heed 1

theorem indirectInterface (v : Variant) (c : IndirectInterface) :
    Marked (Size.indirectInterface c) (Ignored.indirectInterface v c) := by
  cases c with
  | dash7 a => exact cons (heed 1) (last (addressee v a))
  | _ => exact heed 1

theorem query (q : Query) : Marked (Size.query q) (Ignored.query q) := by
  cases q with
  | nonVoid q => exact (cons (heed 1) (cons (length _) (last (fileOffset _)))).cast rfl (by
      simp [Ignored.query, Ignored.heed, skip]; try omega)
  | comparisonWithZero q => exact (cons (heed _) (cons (length _) (last (fileOffset _)))).cast rfl (by simp [Ignored.query, Ignored.heed]; try omega)
  | comparisonWithValue q => exact (cons (heed _) (cons (length _) (last (fileOffset _)))).cast rfl (by simp [Ignored.query, Ignored.heed]; try omega)
  | comparisonWithOtherFile q => exact (cons (heed _) (cons (length _) (cons (fileOffset _) (last (fileOffset _))))).cast rfl (by simp [Ignored.query, Ignored.heed]; try omega)
  | bitmapRangeComparison q => exact (cons (heed _) (cons (length _) (cons (length _) (cons (length _) (last (fileOffset _)))))).cast rfl (by simp [Ignored.query, Ignored.heed]; try omega)
  | stringTokenSearch q => exact (cons (heed _) (cons (length _) (last (fileOffset _)))).cast rfl (by simp [Ignored.query, Ignored.heed, skip]; try omega)

theorem action (cfg : Cfg) (a : Action) (hw : a.WF cfg) :
    Marked (Size.action cfg.variant a) (Ignored.action cfg.variant a) := by
  have hw := hw.2
  cases a with
  | nop | chunk | logic | extension => exact heed 1
  | readFileData o => exact (cons (heed 1) (cons (fileOffset _) (last (length _)))).cast rfl (by simp [Ignored.action])
  | readFileProperties | existFile | deleteFile | restoreFile | flushFile | executeFile | responseTag => exact heed 2
  | requestTag => exact (heed 2).cast rfl rfl
  | writeFileData o | writeFileDataFlush o | returnFileData o =>
    exact (cons (heed 1) (cons (fileOffset _) (last (file _ _ hw.2)))).cast rfl (by simp [Ignored.action])
  | writeFileProperties | createNewFile | returnFileProperties => exact (heed 14).cast rfl rfl
  | actionQuery o | breakQuery o | verifyChecksum o => exact cons (heed 1) (last (query _))
  | permissionRequest => exact heed 11
  | copyFile => exact heed 3
  | status o =>
    obtain ⟨h1, t, s⟩ := o
    refine cons (heed 1) (last ?_)
    cases s with
    | action s => exact heed 2
    | interface o => exact interfaceStatus cfg o hw.2
    | interfaceFinal o => exact interfaceFinalStatus _ _ hw.2.2
  | txStatus => exact hw.elim
  | forward o =>
    exact (cons (heed 1) (last (interfaceConfiguration cfg _ hw))).cast rfl (by
      simp [Ignored.action, Ignored.heed, skip])
  | indirectForward o =>
    simp only [Size.action, Ignored.action]
    cases o.configuration with
    | none => exact heed 1
    | some i => exact cons (heed 1) (last (indirectInterface _ i))

theorem actions (cfg : Cfg) (as : List Action) (hw : ∀ a ∈ as, a.WF cfg) :
    Marked (Size.sum (as.map (Size.action cfg.variant))) (as.flatMap (Ignored.action cfg.variant)) := by
  induction as with
  | nil => exact snil
  | cons a as ih => exact cons (action cfg a (hw a (by simp))) (ih fun b hb => hw b (by simp [hb]))

end Marked

end Dash7
