import Verif.Lemmas.Leaf2

/-!
# Round trips and post-conditions: files and operations
-/

namespace Dash7

/-! ## Strings -/

theorem strBytes_def (s : String) :
    strBytes s = s.toByteArray.data.toList.map UInt8.toBitVec := rfl

theorem strBytes_length (s : String) : (strBytes s).length = s.utf8ByteSize := by
  simp [strBytes_def]

theorem byteArray_strBytes (s : String) :
    (⟨((strBytes s).map UInt8.ofBitVec).toArray⟩ : ByteArray) = s.toByteArray := by
  rw [strBytes_def, List.map_map]
  have : (UInt8.ofBitVec ∘ UInt8.toBitVec) = id := by funext x; rfl
  rw [this]; simp

theorem bytesStr?_iff (b : List U8) (s : String) : bytesStr? b = some s ↔ strBytes s = b := by
  unfold bytesStr? String.fromUTF8?
  constructor
  · intro h
    split at h
    · rename_i hv
      obtain rfl := Option.some.inj h
      rw [strBytes_def]
      show ((b.map UInt8.ofBitVec).toArray).toList.map _ = b
      simp [Function.comp_def]
    · cases h
  · rintro rfl
    rw [byteArray_strBytes]
    split
    · rename_i hv
      congr 1
    · rename_i hv
      exact absurd s.isValidUTF8 hv

theorem stringBuf_length (n : Nat) (s : String) : (stringBuf n s).length = n := by
  simp [stringBuf]; omega

theorem stringBuf_exact {n : Nat} {s : String} (h : s.utf8ByteSize = n) :
    stringBuf n s = strBytes s := by
  have := strBytes_length s
  rw [stringBuf, List.take_of_length_le (by omega), show n - (strBytes s).length = 0 by omega]
  simp

theorem readString.rt {n : Nat} {s : String} (h : s.utf8ByteSize = n) :
    RT (readString n) (writeString n s) s := by
  unfold readString writeString
  refine RT.map (RT.bytes (stringBuf_length n s)) ?_
  rw [(bytesStr?_iff _ s).mpr (stringBuf_exact h).symm]

theorem readString.post (n : Nat) :
    Post (readString n) fun s m => s.utf8ByteSize = n ∧ m = 8 * n := by
  unfold readString
  refine Post.bind (Post.bytes n) fun b m ⟨h1, h2⟩ => ?_
  split
  · rename_i s hs
    refine Post.pure ⟨?_, by omega⟩
    rw [← strBytes_length, (bytesStr?_iff _ _).mp hs, h1]
  · exact Post.fail

/-! ## Files -/

theorem DllConfig.rt (d : DllConfig) : RT read d.write d := by
  unfold read write; rt
theorem DllConfig.post : Post read fun _ n => True ∧ n = 56 := by
  unfold read; post

theorem DllStatus.rt (d : DllStatus) : RT read d.write d := by
  unfold read write; rt
theorem DllStatus.post : Post read fun _ n => True ∧ n = 128 := by
  unfold read; post

theorem EngineeringModeMethod.rt (b : EngineeringModeMethod) : RT read b.write b := by
  cases b <;> exact RT.enum (by decide) (by decide) (by decide)
theorem EngineeringModeMethod.post : Post read fun _ n => True ∧ n = 8 :=
  Post.enum.mono fun _ _ h => ⟨trivial, h.1⟩
macro_rules | `(tactic| rt_leaf) => `(tactic| with_reducible exact EngineeringModeMethod.rt _)
macro_rules | `(tactic| post_leaf) => `(tactic| with_reducible exact EngineeringModeMethod.post)

theorem EngineeringMode.rt (d : EngineeringMode) : RT read d.write d := by
  unfold read write; rt
theorem EngineeringMode.post : Post read fun _ n => True ∧ n = 56 := by
  unfold read; post

theorem FactorySettings.rt (d : FactorySettings) : RT read d.write d := by
  unfold read write; rt
/-- Every successful read consumes `k` bits. -/
def Size {α : Type} (p : P α) (k : Nat) : Prop := Post p fun _ n => n = k
theorem Size.u8Bind {α : Type} {f : U8 → P α} {m : Nat} (h : ∀ a, Size (f a) m) :
    Size (P.u8.bind f) (m + 8) :=
  Post.bind Post.u8 fun a n hn => (h a).mono fun _ _ h => by have := hn.1; omega
theorem Size.uintBind {α : Type} {w : Nat} {f : BitVec w → P α} {m : Nat} (h : ∀ a, Size (f a) m) :
    Size ((P.uint w w).bind f) (m + w) :=
  Post.bind Post.uint fun a n hn => (h a).mono fun _ _ h => by have := hn.1; omega
theorem Size.pure {α : Type} (a : α) : Size (P.pure a) 0 := Post.pure rfl

theorem FactorySettings.post : Post read fun _ n => True ∧ n = 448 := by
  have : Size read 448 := by
    unfold read
    repeat (first | exact Size.pure _ | refine Size.u8Bind fun _ => ?_ |
      refine Size.uintBind (w := 32) fun _ => ?_ | refine Size.uintBind (w := 16) fun _ => ?_)
  exact this.mono fun _ _ h => ⟨trivial, h⟩

theorem FirmwareVersion.rt {d : FirmwareVersion} (h : d.WF) : RT read d.write d := by
  have h1 := readString.rt h.1
  have h2 := readString.rt h.2
  unfold read write; rt
theorem FirmwareVersion.post : Post read fun d n => d.WF ∧ n = 120 := by
  unfold read
  refine Post.bind (by post_leaf) fun _ _ _ => ?_
  refine Post.bind (by post_leaf) fun _ _ _ => ?_
  refine Post.bind (readString.post _) fun _ _ ⟨h1, _⟩ => ?_
  refine Post.bind (readString.post _) fun _ _ ⟨h2, _⟩ => ?_
  exact Post.pure ⟨⟨h1, h2⟩, by omega⟩

theorem PhyStatus.rt {d : PhyStatus} (h : d.WF) : RT read d.write d := by
  have := RT.count' (n := d.channelStatusListLength.toNat) h.1.symm
    fun c hc => ChannelStatus.rt (h.2 c hc)
  unfold read write; rt
theorem PhyStatus.post : Post read fun d n => d.WF ∧ n = 120 + 24 * d.channelStatus.length := by
  unfold read
  iterate 5 refine Post.bind (by post_leaf) fun _ _ _ => ?_
  refine Post.bind (Post.countSize ChannelStatus.post _) fun _ _ ⟨⟨h1, h2⟩, _⟩ => ?_
  exact Post.pure ⟨⟨h1.symm, h2⟩, by dsimp only; omega⟩

theorem SecurityKey.rt (cfg : Cfg) (d : SecurityKey) : RT (read cfg) (d.write cfg) d := by
  unfold read write; rt
theorem SecurityKey.post (cfg : Cfg) : Post (read cfg) fun _ n => True ∧ n = 128 := by
  unfold read; post

/-- Bits of a file content. -/
def File.bits : File → Nat
  | .accessProfile _ _ => 520
  | .uId _ => 64
  | .factorySettings _ => 448
  | .firmwareVersion _ => 120
  | .engineeringMode _ => 56
  | .vId _ => 16
  | .phyStatus f => 120 + 24 * f.channelStatus.length
  | .dllConfig _ => 56
  | .dllStatus _ => 128
  | .nwlSecurityKey _ => 128
  | .other b => 8 * b.length

theorem File.bits_dvd (f : File) : 8 ∣ f.bits := by
  cases f <;> simp only [bits] <;> omega

/-- Reader without the declared length mattering, or for opaque content of the right length. -/
theorem File.rt {cfg : Cfg} {fid : FileId} {f : File} {l : U32} (h : f.WF fid)
    (hl : l.toNat = f.bits / 8) : RT (read cfg fid l) (f.write cfg) f := by
  cases f with
  | accessProfile i p => obtain ⟨rfl, h⟩ := h; exact RT.map (AccessProfile.rt h) rfl
  | uId a =>
    obtain ⟨rfl, h⟩ := h
    refine RT.map (a := a) ?_ rfl
    have := Address.rt (a := a) (by cases a <;> first | trivial | simp [Address.type] at h)
    rwa [h] at this
  | factorySettings f => obtain rfl := h; exact RT.map (FactorySettings.rt f) rfl
  | firmwareVersion f => obtain ⟨rfl, h⟩ := h; exact RT.map (FirmwareVersion.rt h) rfl
  | engineeringMode f => obtain rfl := h; exact RT.map (EngineeringMode.rt f) rfl
  | vId a =>
    obtain ⟨rfl, h⟩ := h
    refine RT.map (a := a) ?_ rfl
    have := Address.rt (a := a) (by cases a <;> first | trivial | simp [Address.type] at h)
    rwa [h] at this
  | phyStatus f => obtain ⟨rfl, h⟩ := h; exact RT.map (PhyStatus.rt h) rfl
  | dllConfig f => obtain rfl := h; exact RT.map (DllConfig.rt f) rfl
  | dllStatus f => obtain rfl := h; exact RT.map (DllStatus.rt f) rfl
  | nwlSecurityKey f => obtain rfl := h; exact RT.map (SecurityKey.rt cfg f) rfl
  | other b =>
    obtain ⟨h1, h2⟩ := h
    have hl : b.length = l.toNat := by simp only [bits] at hl; omega
    cases fid <;> simp only [Spec.structuredFile, Bool.true_eq_false] at h1 <;>
      exact RT.map (RT.bytes hl) rfl

theorem File.post (cfg : Cfg) (fid : FileId) (l : U32) (hl : l.toNat < 2 ^ 30) :
    Post (read cfg fid l) fun f n =>
      (f.WF fid ∧ ∀ b, f = .other b → b.length = l.toNat) ∧ n = f.bits := by
  unfold read
  split
  · exact Post.bind AccessProfile.post fun _ _ h => Post.pure ⟨⟨⟨rfl, h.1⟩, by simp⟩, h.2⟩
  · exact Post.bind (Address.post _) fun _ _ h => Post.pure ⟨⟨⟨rfl, h.1.1⟩, by simp⟩, h.2⟩
  · exact Post.bind FactorySettings.post fun _ _ h => Post.pure ⟨⟨rfl, by simp⟩, h.2⟩
  · exact Post.bind FirmwareVersion.post fun _ _ h => Post.pure ⟨⟨⟨rfl, h.1⟩, by simp⟩, h.2⟩
  · exact Post.bind EngineeringMode.post fun _ _ h => Post.pure ⟨⟨rfl, by simp⟩, h.2⟩
  · exact Post.bind (Address.post _) fun _ _ h => Post.pure ⟨⟨⟨rfl, h.1.1⟩, by simp⟩, h.2⟩
  · exact Post.bind PhyStatus.post fun _ _ h => Post.pure ⟨⟨⟨rfl, h.1⟩, by simp⟩, h.2⟩
  · exact Post.bind DllConfig.post fun _ _ h => Post.pure ⟨⟨rfl, by simp⟩, h.2⟩
  · exact Post.bind DllStatus.post fun _ _ h => Post.pure ⟨⟨rfl, by simp⟩, h.2⟩
  · exact Post.bind (SecurityKey.post cfg) fun _ _ h => Post.pure ⟨⟨rfl, by simp⟩, h.2⟩
  · refine Post.bind (Post.bytes _) fun b _ ⟨h1, h2⟩ => ?_
    refine Post.pure ⟨⟨⟨?_, by omega⟩, ?_⟩, ?_⟩
    · unfold Spec.structuredFile; split <;> simp_all
    · rintro b' h; cases h; exact h1
    · simp only [bits]; omega

/-! ## Length prefixes -/

/-- What `writeLengthPrefixed` produces for whole bytes. -/
theorem writeLengthPrefixed_ok {bs : List Bool} (h8 : 8 ∣ bs.length) :
    writeLengthPrefixed (.ok bs) =
      W.seq [(Length.ofUsize (bs.length / 8)).write, .ok bs] := by
  have hl : (packBits bs).length = bs.length / 8 := by rw [packBits_length]; omega
  simp only [writeLengthPrefixed]
  rw [W.list_u8, bytesBits_packBits _ h8, hl]

theorem lengthPrefixed_rt {α : Type} {k : U32 → P α} {w : W} {bs : List Bool} {a : α}
    (hw : w = .ok bs) (h8 : 8 ∣ bs.length) (hlt : bs.length / 8 < 2 ^ 30)
    (hd : ∀ l : U32, l.toNat = bs.length / 8 → Dec (k l) bs a) :
    RT (Length.read.bind fun l => k l.val) (writeLengthPrefixed w) a := by
  subst hw
  rw [writeLengthPrefixed_ok h8]
  refine RT.cons (Length.rt (Length.ofUsize_wf hlt)) ?_
  rw [W.seq_singleton]
  exact ⟨bs, rfl, hd _ (Length.ofUsize_toNat hlt)⟩

theorem extraBytes_mono_small {n : Nat} (h : n < 64) :
    Length.extraBytes (Length.ofUsize n).val = 0 := by
  rw [Length.extraBytes_eq, Length.ofUsize_toNat (by omega), if_pos (by simpa using h)]

/-- Size bound: the prefix of `n` bytes takes `1 + e` bytes when `n < 2^(6+8e)`. -/
theorem lengthPrefixed_le {w : W} {bs : List Bool} {e : Nat}
    (hw : w = .ok bs) (h8 : 8 ∣ bs.length) (he : e < 4) (hlt : bs.length / 8 < 2 ^ (6 + e * 8)) :
    LenLe (writeLengthPrefixed w) (8 * (1 + e) + bs.length) := by
  subst hw
  have h30 : bs.length / 8 < 2 ^ 30 :=
    Nat.lt_of_lt_of_le hlt (Nat.pow_le_pow_right (by omega) (by omega))
  rw [writeLengthPrefixed_ok h8]
  refine LenLe.cons ((Length.write_len (Length.ofUsize_wf h30)).mono ?_)
    (m := bs.length) (by rw [W.seq_singleton]; exact ⟨bs, rfl, Nat.le_refl _⟩)
  have := Length.extraBytes_le (v := (Length.ofUsize (bs.length / 8)).val) (k := e)
    (by rw [Length.ofUsize_toNat h30]; exact hlt) he
  omega

end Dash7
