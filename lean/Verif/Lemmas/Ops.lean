import Verif.Lemmas.Leaf3

/-!
# Round trips and post-conditions of the operations
-/

namespace Dash7

theorem OpCode.rt {o : OpCode} (h : o.code.toNat < 64) : RT read o.write o := by
  unfold read write
  exact RT.map (RT.uint (by omega) h) rfl
theorem OpCode.post : Post read fun o n => o.code.toNat < 64 ∧ n = 6 := by
  unfold read
  exact Post.bind Post.uint fun _ _ h => Post.pure ⟨h.2.2.1, by omega⟩
theorem OpCode.le (o : OpCode) : LenLe o.write 6 := ⟨_, rfl, by simp⟩
macro_rules | `(tactic| rt_leaf) => `(tactic| with_reducible exact OpCode.rt (by assumption))
macro_rules | `(tactic| post_leaf) => `(tactic| with_reducible exact OpCode.post)

theorem StatusCode.rt (o : StatusCode) : RT read o.write o := by
  unfold read write; exact RT.map (RT.u8 _) rfl
theorem StatusCode.post : Post read fun _ n => True ∧ n = 8 := by
  unfold read; post
macro_rules | `(tactic| rt_leaf) => `(tactic| with_reducible exact StatusCode.rt _)
macro_rules | `(tactic| post_leaf) => `(tactic| with_reducible exact StatusCode.post)

theorem ActionStatus.rt (o : ActionStatus) : RT read o.write o := by
  unfold read write; rt
theorem ActionStatus.post : Post read fun _ n => True ∧ n = 16 := by
  unfold read; post
macro_rules | `(tactic| rt_leaf) => `(tactic| with_reducible exact ActionStatus.rt _)
macro_rules | `(tactic| post_leaf) => `(tactic| with_reducible exact ActionStatus.post)

theorem Permission.rt (o : Permission) : RT read o.write o := by
  cases o with
  | dash7 b =>
    unfold read write
    refine RT.cons (RT.u8 _) ?_
    exact RT.cons (RT.byteArray b) (RT.pure _)
theorem Permission.post : Post read fun _ n => True ∧ n = 72 := by
  unfold read
  refine Post.bind (by post_leaf) fun _ _ _ => ?_
  split
  · exact Post.bind (Post.byteArray _) fun _ _ _ => Post.pure ⟨trivial, by omega⟩
  · exact Post.fail
macro_rules | `(tactic| rt_leaf) => `(tactic| with_reducible exact Permission.rt _)
macro_rules | `(tactic| post_leaf) => `(tactic| with_reducible exact Permission.post)

theorem PermissionLevel.rt (b : PermissionLevel) : RT read b.write b := by
  cases b <;> exact RT.enum (by decide) (by decide) (by decide)
theorem PermissionLevel.post : Post read fun _ n => True ∧ n = 8 :=
  Post.enum.mono fun _ _ h => ⟨trivial, h.1⟩
macro_rules | `(tactic| rt_leaf) => `(tactic| with_reducible exact PermissionLevel.rt _)
macro_rules | `(tactic| post_leaf) => `(tactic| with_reducible exact PermissionLevel.post)

theorem ActionHeader.rt (o : ActionHeader) : RT read o.write o := by
  unfold read write; rt
theorem ActionHeader.post : Post read fun _ n => True ∧ n = 2 := by
  unfold read; post
theorem ActionHeader.le (o : ActionHeader) : LenLe o.write 2 := ⟨[o.group, o.response], rfl, by simp⟩
macro_rules | `(tactic| rt_leaf) => `(tactic| with_reducible exact ActionHeader.rt _)
macro_rules | `(tactic| post_leaf) => `(tactic| with_reducible exact ActionHeader.post)

namespace Op

/-- Post-condition shape of an operation: whole bytes, at least one, re-encoding no longer. -/
abbrev OpPost {α : Type} (p : P α) (w : OpCode → α → W) (G : α → Prop) (slack : α → Nat) : Prop :=
  Post p fun a n => (G a ∧ 8 ∣ n ∧ 8 ≤ n) ∧ ∀ op, LenLe (w op a) (n + slack a)

/-- For operations of a fixed size. -/
theorem OpPost.ofSize {α : Type} {p : P α} {w : OpCode → α → W} {k : Nat}
    (h : Post p fun _ n => True ∧ n = k) (h8 : 8 ∣ k ∧ 8 ≤ k)
    (hw : ∀ op a, LenLe (w op a) k) : OpPost p w (fun _ => True) (fun _ => 0) := by
  refine h.mono fun a n ⟨_, h2⟩ => ?_
  subst h2
  exact ⟨⟨trivial, h8⟩, fun op => hw op a⟩

theorem Nop.rt {o : Nop} (h : o.opcode.code.toNat < 64) : RT read (o.write o.opcode) o := by
  unfold read write; rt
theorem Nop.post : OpPost read Nop.write (fun _ => True) (fun _ => 0) :=
  OpPost.ofSize (k := 8) (by unfold read; post) (by omega)
    fun op a => .cons a.header.le (.cons op.le .nil)

theorem FileId.rt {o : FileId} (h : o.opcode.code.toNat < 64) : RT read (o.write o.opcode) o := by
  unfold read write; rt
theorem FileId.post : OpPost read FileId.write (fun _ => True) (fun _ => 0) :=
  OpPost.ofSize (k := 16) (by unfold read; post) (by omega)
    fun op a => .cons a.header.le (.cons op.le (.cons ((RT.u8 _).lenLe Post.u8') .nil))

theorem FileProperties.rt {o : FileProperties} (h : o.opcode.code.toNat < 64) :
    RT read (o.write o.opcode) o := by
  unfold read write; rt
theorem FileProperties.post : OpPost read FileProperties.write (fun _ => True) (fun _ => 0) :=
  OpPost.ofSize (k := 112) (by unfold read; post) (by omega)
    fun op a => .cons a.header.le (.cons op.le (.cons ((RT.u8 _).lenLe Post.u8')
      (.cons ((Data.FileHeader.rt _).lenLe (f := fun _ => 96) Data.FileHeader.post) .nil)))

theorem ReadFileData.rt {o : ReadFileData} (h : o.opcode.code.toNat < 64)
    (h1 : o.offset.WF) (h2 : o.length.WF) : RT read (o.write o.opcode) o := by
  unfold read write; rt
theorem ReadFileData.post :
    OpPost read ReadFileData.write (fun o => o.offset.WF ∧ o.length.WF) (fun _ => 0) := by
  unfold read
  refine Post.bind ActionHeader.post fun _ _ ⟨_, e1⟩ => ?_
  refine Post.bind OpCode.post fun _ _ ⟨_, e2⟩ => ?_
  refine Post.bind FileOffset.post fun _ _ ⟨⟨h1, _, _⟩, w1⟩ => ?_
  refine Post.bind Length.post fun _ _ ⟨⟨h2, _⟩, w2⟩ => ?_
  subst e1 e2
  exact Post.pure ⟨⟨⟨h1, h2⟩, by omega, by omega⟩,
    fun op => (LenLe.cons (ActionHeader.le _) (.cons op.le (.cons w1 (.cons w2 .nil)))).mono
      (Nat.le_refl _)⟩

theorem ActionQuery.rt {o : ActionQuery} (h : o.opcode.code.toNat < 64)
    (h1 : o.query.WF) : RT read (o.write o.opcode) o := by
  unfold read write; rt
theorem ActionQuery.post :
    OpPost read ActionQuery.write (fun o => o.query.WF) (fun _ => 0) := by
  unfold read
  refine Post.bind ActionHeader.post fun _ _ ⟨_, e1⟩ => ?_
  refine Post.bind OpCode.post fun _ _ ⟨_, e2⟩ => ?_
  refine Post.bind Query.post fun _ _ ⟨⟨h1, _⟩, w1⟩ => ?_
  subst e1 e2
  exact Post.pure ⟨⟨h1, by omega, by omega⟩,
    fun op => (LenLe.cons (ActionHeader.le _) (.cons op.le (.cons w1 .nil))).mono
      (Nat.le_refl _)⟩

theorem PermissionRequest.rt {o : PermissionRequest} (h : o.opcode.code.toNat < 64) :
    RT read (o.write o.opcode) o := by
  unfold read write; rt
theorem PermissionRequest.post : OpPost read PermissionRequest.write (fun _ => True) (fun _ => 0) :=
  OpPost.ofSize (k := 88) (by unfold read; post) (by omega)
    fun op a => .cons a.header.le (.cons op.le
      (.cons ((PermissionLevel.rt _).lenLe (f := fun _ => 8) PermissionLevel.post)
      (.cons ((Permission.rt _).lenLe (f := fun _ => 72) Permission.post) .nil)))

theorem CopyFile.rt {o : CopyFile} (h : o.opcode.code.toNat < 64) :
    RT read (o.write o.opcode) o := by
  unfold read write; rt
theorem CopyFile.post : OpPost read CopyFile.write (fun _ => True) (fun _ => 0) :=
  OpPost.ofSize (k := 24) (by unfold read; post) (by omega)
    fun op a => .cons a.header.le (.cons op.le (.cons ((RT.u8 _).lenLe Post.u8')
      (.cons ((RT.u8 _).lenLe Post.u8') .nil)))

/-! ### File data -/

theorem _root_.Dash7.File.bits_lt {fid : Dash7.FileId} {f : File} (h : f.WF fid) :
    f.bits / 8 < 2 ^ 30 := by
  cases f with
  | other b => obtain ⟨_, h⟩ := h; simp only [File.bits]; omega
  | phyStatus f =>
    obtain ⟨_, h, _⟩ := h
    have := f.channelStatusListLength.isLt
    simp only [File.bits]; omega
  | _ => simp only [File.bits]; omega

theorem FileData.rtData {cfg : Cfg} {off : FileOffset} {f : File}
    (h : f.WF (Dash7.FileId.ofId off.fileId)) :
    RT (FileData.readData cfg off) (FileData.writeData cfg f) f := by
  unfold readData writeData
  have hlt := File.bits_lt h
  have h8 := f.bits_dvd
  have hz : (BitVec.ofNat 32 (f.bits / 8)).toNat = f.bits / 8 := by
    rw [BitVec.toNat_ofNat]; omega
  obtain ⟨bs, hw, hd, hl⟩ := (File.rt (cfg := cfg) h hz).size
    (File.post cfg _ _ (by rw [hz]; exact hlt))
  refine lengthPrefixed_rt hw (by omega) (by omega) fun l hl' => ?_
  obtain ⟨bs', hw', hd'⟩ := File.rt (cfg := cfg) (l := l) h (by omega)
  rw [hw] at hw'
  cases hw'
  exact hd'

theorem FileData.postData (cfg : Cfg) (off : FileOffset) :
    Post (FileData.readData cfg off) fun f n => (f.WF (Dash7.FileId.ofId off.fileId) ∧ 8 ∣ n) ∧
      LenLe (FileData.writeData cfg f) (n + f.slack) := by
  unfold readData
  refine Post.bind Length.post' fun l n1 ⟨h1, w1, k, hk, e1⟩ => ?_
  refine (File.post cfg (Dash7.FileId.ofId off.fileId) l.val h1).mono fun f n2 ⟨⟨h2, h3⟩, e2⟩ => ?_
  have h8 := f.bits_dvd
  refine ⟨⟨h2, by omega⟩, ?_⟩
  have hlt := File.bits_lt h2
  have hz : (BitVec.ofNat 32 (f.bits / 8)).toNat = f.bits / 8 := by
    rw [BitVec.toNat_ofNat]; omega
  obtain ⟨bs, hw, hd, hl⟩ := (File.rt (cfg := cfg) h2 hz).size
    (File.post cfg _ _ (by rw [hz]; exact hlt))
  unfold writeData
  have key : ∀ e, e < 4 → f.bits / 8 < 2 ^ (6 + e * 8) → 8 * (1 + e) ≤ n1 + f.slack →
      LenLe (writeLengthPrefixed (f.write cfg)) (n1 + n2 + f.slack) := fun e he hlt hle =>
    (lengthPrefixed_le hw (by omega) he (by rw [hl]; exact hlt)).mono (by omega)
  cases f with
  | other b =>
    rw [hw, writeLengthPrefixed_ok (by omega)]
    have : Length.ofUsize (bs.length / 8) = l := by
      have hb := h3 b rfl
      have : bs.length / 8 = l.val.toNat := by rw [hl]; simp only [File.bits]; omega
      rw [this]; cases l; simp [Length.ofUsize]
    rw [this]
    exact (LenLe.cons w1 (LenLe.cons ⟨bs, rfl, Nat.le_refl _⟩ .nil)).mono (by omega)
  | accessProfile i p =>
    refine key 1 (by omega) ?_ ?_
    · simp only [File.bits]; omega
    · simp only [File.slack]; omega
  | phyStatus p =>
    obtain ⟨_, h, _⟩ := h2
    have := p.channelStatusListLength.isLt
    by_cases h17 : 17 ≤ p.channelStatus.length
    · refine key 1 (by omega) ?_ ?_
      · simp only [File.bits]; omega
      · simp only [File.slack, if_pos h17]; omega
    · refine key 0 (by omega) ?_ ?_
      · simp only [File.bits]; omega
      · omega
  | _ =>
    refine key 0 (by omega) ?_ ?_
    · simp only [File.bits]; omega
    · omega

theorem FileData.rt {cfg : Cfg} {o : FileData} (h : o.opcode.code.toNat < 64)
    (h1 : o.offset.WF) (h2 : o.data.WF (Dash7.FileId.ofId o.offset.fileId)) :
    RT (read cfg) (o.write cfg o.opcode) o := by
  have := FileData.rtData (cfg := cfg) (off := o.offset) h2
  unfold read write; rt
theorem FileData.post (cfg : Cfg) : OpPost (read cfg) (FileData.write cfg)
    (fun o => o.offset.WF ∧ o.data.WF (Dash7.FileId.ofId o.offset.fileId))
    (fun o => o.data.slack) := by
  unfold read
  refine Post.bind ActionHeader.post fun _ _ ⟨_, e1⟩ => ?_
  refine Post.bind OpCode.post fun _ _ ⟨_, e2⟩ => ?_
  refine Post.bind FileOffset.post fun _ _ ⟨⟨h1, _, _⟩, w1⟩ => ?_
  refine Post.bind (FileData.postData cfg _) fun _ _ ⟨⟨h2, _⟩, w2⟩ => ?_
  subst e1 e2
  exact Post.pure ⟨⟨⟨h1, h2⟩, by omega, by omega⟩,
    fun op => (LenLe.cons (ActionHeader.le _) (.cons op.le (.cons w1 (.cons w2 .nil)))).mono
      (by dsimp only; omega)⟩

/-! ### Status -/

theorem StatusType.rt (b : StatusType) : RT read b.write b := by
  cases b <;> exact RT.enum (by decide) (by decide) (by decide)
theorem StatusType.post : Post read fun _ n => True ∧ n = 2 :=
  Post.enum.mono fun _ _ h => ⟨trivial, h.1⟩
theorem StatusType.le (o : StatusType) : LenLe o.write 2 := ⟨_, rfl, by simp⟩

theorem _root_.Dash7.Spec.lengthHead_eq {n : Nat} (h : n < 2 ^ 30) :
    ∃ e, e < 4 ∧ n < 2 ^ (6 + e * 8) ∧ Spec.lengthHead n = e * 64 + n / 2 ^ (e * 8) ∧
      Length.extraBytes (Length.ofUsize n).val = e := by
  rw [Length.extraBytes_eq, Length.ofUsize_toNat h]
  unfold Spec.lengthHead
  by_cases h6 : n < 2 ^ 6
  · exact ⟨0, by omega, by omega, by simp [h6], by simp [h6]⟩
  by_cases h14 : n < 2 ^ 14
  · exact ⟨1, by omega, by omega, by simp [h6, h14], by simp [h6, h14]⟩
  by_cases h22 : n < 2 ^ 22
  · exact ⟨2, by omega, by omega, by simp [h6, h14, h22], by simp [h6, h14, h22]⟩
  exact ⟨3, by omega, by omega, by simp [h6, h14, h22], by simp [h6, h14, h22]; omega⟩

theorem _root_.Dash7.Length.write_split {n : Nat} (h : n < 2 ^ 30) :
    ∃ e, e < 4 ∧ n < 2 ^ (6 + e * 8) ∧ Spec.lengthHead n = e * 64 + n / 2 ^ (e * 8) ∧
      (Length.ofUsize n).write =
        .ok (natBits 8 (Spec.lengthHead n) ++ natBits (e * 8) (n % 2 ^ (e * 8))) := by
  obtain ⟨e, he, hlt, hh, hx⟩ := Spec.lengthHead_eq h
  refine ⟨e, he, hlt, hh, ?_⟩
  have e1 : W.uint 2 (BitVec.ofNat 32 e) = .ok (natBits 2 e) := by
    rw [W.uint, if_neg (by omega), BitVec.toNat_ofNat, Nat.mod_eq_of_lt (by omega)]
  have e2 : W.uint (6 + e * 8) (Length.ofUsize n).val = .ok (natBits (6 + e * 8) n) := by
    rw [W.uint, if_neg (by omega), Length.ofUsize_toNat h]
  have hq : n / 2 ^ (e * 8) < 2 ^ 6 := by
    rw [Nat.div_lt_iff_lt_mul (Nat.two_pow_pos _), ← Nat.pow_add]
    exact hlt
  have e3 : natBits 8 (e * 64 + n / 2 ^ (e * 8)) = natBits 2 e ++ natBits 6 (n / 2 ^ (e * 8)) := by
    generalize n / 2 ^ (e * 8) = q at hq
    rw [natBits_append 2 6]
    congr 1
    · congr 1; omega
    · rw [← natBits_mod 6 6 (e * 64 + q) (Nat.le_refl _)]
      congr 1; omega
  have e4 : natBits (6 + e * 8) n =
      natBits 6 (n / 2 ^ (e * 8)) ++ natBits (e * 8) (n % 2 ^ (e * 8)) := by
    rw [natBits_append 6 (e * 8), natBits_mod _ _ _ (Nat.le_refl _)]
  rw [Length.write, hx, e1, e2, hh, e3, e4]
  simp [W.seq]


theorem lengthAfter_dec {b : U8} {e v : Nat} (hb : b.toNat / 64 = e) (he : e < 4)
    (hv : v < 2 ^ (e * 8)) :
    Dec (lengthAfter b) (natBits (e * 8) v) ⟨BitVec.ofNat 32 (b.toNat % 64 * 2 ^ (e * 8) + v)⟩ := by
  intro rest
  unfold lengthAfter
  rw [hb]
  have hv32 : v < 2 ^ 32 := Nat.lt_of_lt_of_le hv (Nat.pow_le_pow_right (by omega) (by omega))
  have hz : (BitVec.ofNat 32 v).toNat = v := by
    rw [BitVec.toNat_ofNat]; exact Nat.mod_eq_of_lt hv32
  obtain ⟨bs, hw, hd⟩ := RT.uint (w := 32) (n := e * 8) (v := BitVec.ofNat 32 v) (by omega)
    (by rw [hz]; exact hv)
  rw [W.uint, if_neg (by omega), hz] at hw
  cases hw
  simp only [P.bind_eq]
  rw [P.eval_bind, hd rest]
  simp [hz]

theorem InterfaceType.ofId_unknown {b : U8} (h0 : b.toNat ≠ 0) (h1 : b.toNat ≠ 1)
    (h2 : b.toNat ≠ 2) (h3 : b.toNat ≠ 3) (h4 : b.toNat ≠ 0xD7) :
    InterfaceType.ofId b = .unknown := by
  unfold InterfaceType.ofId
  split <;> simp_all

theorem statusLength_known {cfg : Cfg} {b : U8} (h : InterfaceType.ofId b ≠ .unknown) :
    statusLength cfg b = Length.read := by
  rw [statusLength, if_neg (by simp [h])]

theorem InterfaceStatusOperation.rt {cfg : Cfg} {o : InterfaceStatusOperation}
    (h1 : o.interfaceType = o.status.type) (h : o.status.WF cfg) :
    RT (read cfg) (o.write cfg) o := by
  obtain ⟨t, s⟩ := o
  dsimp only at h1 h
  subst h1
  unfold read write
  cases s with
  | host =>
    refine RT.cons (RT.u8 0x00) ?_
    rw [W.seq_singleton, statusLength_known (by decide)]
    exact lengthPrefixed_rt (bs := []) (k := fun l =>
      (InterfaceStatus.read cfg (InterfaceType.ofId 0x00) l).bind fun s =>
        .pure (InterfaceStatusOperation.mk (InterfaceType.ofId 0x00) s)) rfl (by simp) (by simp) fun l _ rest => rfl
  | serial =>
    refine RT.cons (RT.u8 0x01) ?_
    rw [W.seq_singleton, statusLength_known (by decide)]
    exact lengthPrefixed_rt (bs := []) (k := fun l =>
      (InterfaceStatus.read cfg (InterfaceType.ofId 0x01) l).bind fun s =>
        .pure (InterfaceStatusOperation.mk (InterfaceType.ofId 0x01) s)) rfl (by simp) (by simp) fun l _ rest => rfl
  | dash7 s =>
    refine RT.cons (RT.u8 0xD7) ?_
    rw [W.seq_singleton, statusLength_known (by decide)]
    obtain ⟨bs, hw, hd, hl⟩ := (Dash7InterfaceStatus.rt h).size (Dash7InterfaceStatus.post cfg)
    have := s.addressee.bits_dvd
    refine lengthPrefixed_rt (k := fun l =>
      (InterfaceStatus.read cfg (InterfaceType.ofId 0xD7) l).bind fun s =>
        .pure (InterfaceStatusOperation.mk (InterfaceType.ofId 0xD7) s)) hw (by omega) (by omega) fun l _ rest => ?_
    have ho : InterfaceType.ofId 0xD7 = .dash7 := rfl
    simp only [ho, InterfaceStatus.read, P.bind_eq]
    rw [P.eval_bind, P.eval_bind, hd rest]
    rfl
  | other b =>
    obtain ⟨hu, h4, hlt, hh⟩ := h
    have hb8 : (bytesBits b).length / 8 = b.length := by rw [bytesBits_length]; omega
    have hw : writeLengthPrefixed (InterfaceStatus.write cfg (.other b)) =
        W.seq [(Length.ofUsize b.length).write, .ok (bytesBits b)] := by
      show writeLengthPrefixed (W.list W.u8 b) = _
      rw [W.list_u8, writeLengthPrefixed_ok (by rw [bytesBits_length]; omega), hb8]
    obtain ⟨e, he, hn, hhead, hlw⟩ := Length.write_split hlt
    have hwr : W.seq [InterfaceType.write (InterfaceStatus.other b).type,
        writeLengthPrefixed (InterfaceStatus.write cfg (.other b))] =
        .ok (natBits 8 (Spec.lengthHead b.length) ++
          (natBits (e * 8) (b.length % 2 ^ (e * 8)) ++ bytesBits b)) := by
      rw [hw, hlw]
      simp [W.seq, InterfaceStatus.type, InterfaceType.write, InterfaceType.id?]
    have hq : b.length / 2 ^ (e * 8) < 2 ^ 6 := by
      rw [Nat.div_lt_iff_lt_mul (Nat.two_pow_pos _), ← Nat.pow_add]
      exact hn
    have hh8 : Spec.lengthHead b.length < 256 := by rw [hhead]; omega
    have h4h : 4 ≤ Spec.lengthHead b.length := by
      rw [hhead]
      rcases Nat.eq_zero_or_pos e with rfl | hpos
      · simpa using h4
      · generalize b.length / 2 ^ (e * 8) = q; omega
    have hz : (BitVec.ofNat 8 (Spec.lengthHead b.length)).toNat = Spec.lengthHead b.length := by
      rw [BitVec.toNat_ofNat]; omega
    have hu' : InterfaceType.ofId (BitVec.ofNat 8 (Spec.lengthHead b.length)) = .unknown :=
      InterfaceType.ofId_unknown (by omega) (by omega) (by omega) (by omega) (by omega)
    refine ⟨_, hwr, fun rest => ?_⟩
    obtain ⟨x, hx, hdx⟩ := RT.u8 (BitVec.ofNat 8 (Spec.lengthHead b.length))
    have hx' : W.u8 (BitVec.ofNat 8 (Spec.lengthHead b.length)) =
        .ok (natBits 8 (Spec.lengthHead b.length)) := by
      rw [W.u8, W.uint, if_neg (by omega), hz]
    rw [hx'] at hx; cases hx
    simp only [P.bind_eq, List.append_assoc]
    rw [P.eval_bind, hdx]
    dsimp only
    rw [hu', statusLength, if_pos ⟨hu', hu⟩, P.eval_bind,
      lengthAfter_dec (e := e) 
        (by rw [hz, hhead]; generalize b.length / 2 ^ (e * 8) = q at hq; omega) he (Nat.mod_lt _ (Nat.two_pow_pos _))]
    dsimp only
    have hlen : (BitVec.ofNat 8 (Spec.lengthHead b.length)).toNat % 64 * 2 ^ (e * 8) +
        b.length % 2 ^ (e * 8) = b.length := by
      rw [hz, hhead]
      have : (e * 64 + b.length / 2 ^ (e * 8)) % 64 = b.length / 2 ^ (e * 8) := by
        generalize b.length / 2 ^ (e * 8) = q at hq; omega
      rw [this, Nat.mul_comm]; exact Nat.div_add_mod _ _
    rw [hlen]
    have hl32 : (BitVec.ofNat 32 b.length).toNat = b.length := by
      rw [BitVec.toNat_ofNat]; omega
    obtain ⟨y, hy, hdy⟩ := RT.bytes (l := b) hl32.symm
    rw [W.list_u8] at hy; cases hy
    simp only [InterfaceStatus.read, P.bind_eq]
    rw [P.eval_bind, P.eval_bind, hdy]
    rfl

theorem InterfaceType.le {t : InterfaceType} : LenLe t.write 8 := by
  cases t
  case unknown => exact ⟨[], rfl, by simp⟩
  all_goals exact ⟨_, rfl, by simp⟩

theorem someBytes_post {α : Type} {f : List U8 → α} {n : Nat} :
    Post ((P.count P.u8 n).bind fun b => P.pure (f b)) fun y m =>
      ∃ x : List U8, y = f x ∧ x.length = n ∧ m = 8 * x.length :=
  Post.bind (Post.bytes _) fun x _ ⟨h3, e3⟩ => Post.pure ⟨x, rfl, h3, by rw [h3]; exact e3⟩

theorem _root_.Dash7.InterfaceStatus.readOther_post (cfg : Cfg) (l : U32) :
    Post (InterfaceStatus.read cfg .unknown l) fun y m =>
      ∃ x : List U8, y = .other x ∧ x.length = l.toNat ∧ m = 8 * x.length := someBytes_post

theorem _root_.Dash7.InterfaceStatus.readDash7_post (cfg : Cfg) (l : U32) :
    Post (InterfaceStatus.read cfg .dash7 l) fun y m =>
      ∃ s, y = .dash7 s ∧ s.WF cfg ∧ m = 80 + s.addressee.bits :=
  Post.bind (Dash7InterfaceStatus.post cfg) fun s _ ⟨h3, e3⟩ => Post.pure ⟨s, rfl, h3, e3⟩

theorem finalDash7_post :
    Post (InterfaceFinalStatusCode.read.bind fun c => P.pure (InterfaceFinalStatus.dash7 c))
      fun y m => ∃ c, y = .dash7 c ∧ m = 8 :=
  Post.bind InterfaceFinalStatusCode.post fun s _ ⟨_, e3⟩ => Post.pure ⟨s, rfl, e3⟩

theorem txDash7_post (cfg : Cfg) :
    Post ((Dash7InterfaceTxStatus.read cfg).bind fun c => P.pure (InterfaceTxStatus.dash7 c))
      fun y m => ∃ s : Dash7InterfaceTxStatus, y = .dash7 s ∧ s.WF cfg ∧ m = 96 + s.addressee.bits :=
  Post.bind (Dash7InterfaceTxStatus.post cfg) fun s _ ⟨h3, e3⟩ => Post.pure ⟨s, rfl, h3, e3⟩

theorem InterfaceStatusOperation.post (cfg : Cfg) :
    Post (read cfg) fun o n => (o.interfaceType = o.status.type ∧
      ((∀ b, o.status ≠ .other b) → o.status.WF cfg) ∧ 8 ∣ n) ∧ LenLe (o.write cfg) n := by
  unfold read
  refine Post.bind Post.u8 fun b n1 ⟨e1, w1⟩ => ?_
  subst e1
  have hLe : ∀ (t : InterfaceType) (s : InterfaceStatus) (bs : List Bool) (n k : Nat),
      s.write cfg = .ok bs → 8 ∣ bs.length → bs.length / 8 < 64 → n = 8 * (1 + k) + bs.length →
      LenLe (InterfaceStatusOperation.write cfg ⟨t, s⟩) (8 + n) := by
    intro t s bs n k hw h8 hlt hn
    refine (LenLe.cons (InterfaceType.le (t := t))
      (.cons (lengthPrefixed_le (e := 0) hw h8 (by omega) hlt) .nil)).mono (by omega)
  cases ht : InterfaceType.ofId b with
  | host =>
    rw [statusLength, if_neg (by simp [ht])]
    refine Post.bind Length.post' fun l n2 ⟨h1, w1, k, hk, e1⟩ => ?_
    refine Post.pure (a := InterfaceStatusOperation.mk .host .host) ?_
    exact ⟨⟨rfl, fun _ => trivial, by omega⟩, hLe _ _ [] _ k rfl (by simp) (by simp) (by simpa using e1)⟩
  | serial =>
    rw [statusLength, if_neg (by simp [ht])]
    refine Post.bind Length.post' fun l n2 ⟨h1, w1, k, hk, e1⟩ => ?_
    refine Post.pure (a := InterfaceStatusOperation.mk .serial .serial) ?_
    exact ⟨⟨rfl, fun _ => trivial, by omega⟩, hLe _ _ [] _ k rfl (by simp) (by simp) (by simpa using e1)⟩
  | loRaWanABP =>
    refine Post.bind (Q1 := fun _ _ => True) (fun _ _ _ _ => trivial) fun l n2 _ => ?_
    exact Post.fail
  | loRaWanOTAA =>
    refine Post.bind (Q1 := fun _ _ => True) (fun _ _ _ _ => trivial) fun l n2 _ => ?_
    exact Post.fail
  | dash7 =>
    rw [statusLength, if_neg (by simp [ht])]
    refine Post.bind Length.post' fun l n2 ⟨h1, w1, k, hk, e1⟩ => ?_
    refine Post.bind (InterfaceStatus.readDash7_post cfg _) ?_
    rintro _ n3 ⟨s, rfl, h3, e3⟩
    obtain ⟨bs, hw, hd, hl⟩ := (Dash7InterfaceStatus.rt h3).size (Dash7InterfaceStatus.post cfg)
    have := s.addressee.bits_dvd
    exact Post.pure (a := InterfaceStatusOperation.mk .dash7 (.dash7 s)) ⟨⟨rfl, fun _ => h3, by omega⟩,
      hLe _ _ bs _ k hw (by omega) (by omega) (by omega)⟩
  | unknown =>
    by_cases hu : cfg.unitPatConsumes = false
    · rw [statusLength, if_pos ⟨ht, hu⟩]
      have hb : b.toNat < 256 := b.isLt
      have hl : Post (lengthAfter b) fun l n =>
          l.toNat < 2 ^ (6 + b.toNat / 64 * 8) ∧ n = b.toNat / 64 * 8 := by
        unfold lengthAfter
        refine Post.bind Post.uint fun v m ⟨hm, _, hv, _⟩ => Post.pure ⟨?_, by omega⟩
        rw [Length.toNat, BitVec.toNat_ofNat]
        refine Nat.lt_of_le_of_lt (Nat.mod_le _ _) ?_
        have h1 : b.toNat % 64 * 2 ^ (b.toNat / 64 * 8) ≤ 63 * 2 ^ (b.toNat / 64 * 8) :=
          Nat.mul_le_mul_right _ (by omega)
        have h2 : 2 ^ (6 + b.toNat / 64 * 8) = 64 * 2 ^ (b.toNat / 64 * 8) := by
          rw [Nat.pow_add]
        omega
      refine Post.bind hl fun l n2 ⟨h1, e2⟩ => ?_
      refine Post.bind (InterfaceStatus.readOther_post cfg _) ?_
      rintro _ n3 ⟨x, rfl, h3, e3⟩
      refine Post.pure (a := InterfaceStatusOperation.mk .unknown (.other x)) ⟨⟨rfl, fun h => absurd rfl (h x), by omega⟩, ?_⟩
      have hw : InterfaceStatus.write cfg (.other x) = .ok (bytesBits x) := W.list_u8 x
      refine (LenLe.cons (n := 0) (w := InterfaceType.write .unknown) ⟨[], rfl, by simp⟩
        (.cons (lengthPrefixed_le (e := b.toNat / 64) hw (by rw [bytesBits_length]; omega)
          (by omega) ?_) .nil)).mono ?_
      · have : (bytesBits x).length / 8 = l.toNat := by
          have : x.length = l.toNat := h3
          rw [bytesBits_length, ← this]; omega
        rw [this]; exact h1
      · rw [bytesBits_length]; omega
    · rw [statusLength, if_neg (by simp [hu])]
      refine Post.bind Length.post' fun l n2 ⟨h1, w1, k, hk, e1⟩ => ?_
      refine Post.bind (InterfaceStatus.readOther_post cfg _) ?_
      rintro _ n3 ⟨x, rfl, h3, e3⟩
      refine Post.pure (a := InterfaceStatusOperation.mk .unknown (.other x)) ⟨⟨rfl, fun h => absurd rfl (h x), by omega⟩, ?_⟩
      have hw : writeLengthPrefixed (InterfaceStatus.write cfg (.other x)) =
          W.seq [l.write, .ok (bytesBits x)] := by
        show writeLengthPrefixed (W.list W.u8 x) = _
        have hlx : Length.ofUsize x.length = l := by
          rw [h3]; cases l; simp [Length.ofUsize]
        have h8 : (bytesBits x).length / 8 = x.length := by rw [bytesBits_length]; omega
        rw [W.list_u8, writeLengthPrefixed_ok (by rw [bytesBits_length]; omega), h8, hlx]
      refine (LenLe.cons (n := 0) (w := InterfaceType.write .unknown) ⟨[], rfl, by simp⟩
        (LenLe.cons (m := 0) (ws := []) (w := writeLengthPrefixed (InterfaceStatus.write cfg (.other x)))
          (n := n2 + 8 * x.length) ?_ .nil)).mono (by omega)
      rw [hw]
      exact LenLe.cons w1 (by
        rw [W.seq_singleton]; exact ⟨_, rfl, by rw [bytesBits_length]; omega⟩)

/-! ### Final status -/

theorem InterfaceFinalStatusOperation.rt {o : InterfaceFinalStatusOperation}
    (h : o.status.WF o.interfaceId) : RT read o.write o := by
  obtain ⟨i, s⟩ := o
  dsimp only at h
  unfold read write
  refine RT.cons (RT.u8 i) ?_
  rw [W.seq_singleton]
  cases s with
  | dash7 c =>
    obtain rfl : i = 0xD7 := h
    refine lengthPrefixed_rt (k := fun l =>
      (InterfaceFinalStatus.read 0xD7 l).bind fun s =>
        .pure (InterfaceFinalStatusOperation.mk 0xD7 s)) (bs := natBits 8 c.code.toNat) rfl
      (by simp) (by simp) fun l _ rest => ?_
    obtain ⟨bs, hw, hd⟩ := InterfaceFinalStatusCode.rt c
    cases hw
    simp only [InterfaceFinalStatus.read, if_true, P.bind_eq]
    rw [P.eval_bind, P.eval_bind, hd rest]
    rfl
  | other b =>
    obtain ⟨h1, h2⟩ := h
    refine lengthPrefixed_rt (k := fun l =>
      (InterfaceFinalStatus.read i l).bind fun s =>
        .pure (InterfaceFinalStatusOperation.mk i s)) (bs := bytesBits b) (W.list_u8 b)
      (by rw [bytesBits_length]; omega)
      (by rw [bytesBits_length]; omega) fun l hl rest => ?_
    rw [bytesBits_length] at hl
    obtain ⟨y, hy, hdy⟩ := RT.bytes (l := b) (n := l.toNat) (by omega)
    rw [W.list_u8] at hy; cases hy
    simp only [InterfaceFinalStatus.read, if_neg h1, P.bind_eq]
    rw [P.eval_bind, P.eval_bind, hdy rest]
    rfl

/-- Re-encoding of opaque bytes behind a length operand that was read. -/
theorem lenPrefixedBytes_le {l : Length} {x : List U8} {n : Nat} (h3 : x.length = l.val.toNat)
    (w1 : LenLe l.write n) : LenLe (writeLengthPrefixed (W.list W.u8 x)) (n + 8 * x.length) := by
  have hlx : Length.ofUsize x.length = l := by
    rw [h3]; cases l; simp [Length.ofUsize]
  have h8 : (bytesBits x).length / 8 = x.length := by rw [bytesBits_length]; omega
  rw [W.list_u8, writeLengthPrefixed_ok (by rw [bytesBits_length]; omega), h8, hlx]
  exact LenLe.cons w1 (by
        rw [W.seq_singleton]; exact ⟨_, rfl, by rw [bytesBits_length]; omega⟩)

theorem InterfaceFinalStatusOperation.post :
    Post read fun o n => (o.status.WF o.interfaceId ∧ 8 ∣ n) ∧ LenLe o.write n := by
  unfold read
  refine Post.bind Post.u8 fun i n1 ⟨e1, w1⟩ => ?_
  refine Post.bind Length.post' fun l n2 ⟨h1, w2, k, hk, e2⟩ => ?_
  unfold InterfaceFinalStatus.read
  split
  · rename_i hi
    refine Post.bind finalDash7_post ?_
    rintro _ n3 ⟨c, rfl, e3⟩
    refine Post.pure ⟨⟨hi, by omega⟩, ?_⟩
    refine (LenLe.cons w1 (.cons (lengthPrefixed_le (e := 0) (bs := natBits 8 c.code.toNat) rfl
      (by simp) (by omega) (by simp)) .nil)).mono ?_
    simp; omega
  · rename_i hi
    refine Post.bind (someBytes_post (f := InterfaceFinalStatus.other)) ?_
    rintro _ n3 ⟨x, rfl, h3, e3⟩
    have : l.val.toNat < 2 ^ 30 := h1
    refine Post.pure ⟨⟨⟨hi, by omega⟩, by omega⟩, ?_⟩
    exact (LenLe.cons w1 (.cons (lenPrefixedBytes_le h3 w2) .nil)).mono (by omega)

/-! ### Status operand -/

theorem Status.rt {cfg : Cfg} {s : Status} (h : s.WF cfg) :
    RT (read cfg s.type) (s.write cfg) s := by
  cases s with
  | action s => exact RT.map (ActionStatus.rt s) rfl
  | interface o => exact RT.map (InterfaceStatusOperation.rt h.1 h.2) rfl
  | interfaceFinal o =>
    obtain ⟨hv, h⟩ := h
    simp only [Status.type, Status.read, hv]
    exact RT.map (InterfaceFinalStatusOperation.rt h) rfl

theorem Status.post (cfg : Cfg) (t : StatusType) : Post (read cfg t) fun s n =>
    (s.type = t ∧ (s.isOther = false → s.WF cfg) ∧ 8 ∣ n) ∧ LenLe (s.write cfg) n := by
  cases t with
  | action =>
    exact Post.bind ActionStatus.post fun s n ⟨_, e⟩ =>
      Post.pure ⟨⟨rfl, fun _ => trivial, by omega⟩,
        ((ActionStatus.rt s).lenLe (f := fun _ => 16) ActionStatus.post).mono (by omega)⟩
  | interface =>
    refine Post.bind (InterfaceStatusOperation.post cfg) fun o n ⟨⟨h1, h2, h8⟩, w⟩ =>
      Post.pure ⟨⟨rfl, fun h => ⟨h1, h2 fun b hb => ?_⟩, by omega⟩, w⟩
    simp [isOther, hb] at h
  | interfaceFinal =>
    simp only [read]
    split
    · rename_i hv
      exact Post.bind InterfaceFinalStatusOperation.post fun o n ⟨⟨h1, h8⟩, w⟩ =>
        Post.pure ⟨⟨rfl, fun h => ⟨hv, h1⟩, by omega⟩, w⟩
    · exact Post.fail

theorem StatusOperand.rt {cfg : Cfg} {o : StatusOperand} (h : o.opcode.code.toNat < 64)
    (h1 : o.statusType = o.status.type) (h2 : o.status.WF cfg) :
    RT (read cfg) (o.write cfg o.opcode) o := by
  unfold read write
  refine RT.cons (StatusType.rt _) (RT.cons (by rt_leaf) (RT.cons (h1 ▸ Status.rt h2) (RT.pure _)))
theorem StatusOperand.post (cfg : Cfg) : OpPost (read cfg) (StatusOperand.write cfg)
    (fun o => o.statusType = o.status.type ∧ (o.status.isOther = false → o.status.WF cfg))
    (fun _ => 0) := by
  unfold read
  refine Post.bind StatusType.post fun _ _ ⟨_, e1⟩ => ?_
  refine Post.bind OpCode.post fun _ _ ⟨_, e2⟩ => ?_
  refine Post.bind (Status.post cfg _) fun _ _ ⟨⟨h1, h2, _⟩, w1⟩ => ?_
  subst e1 e2
  exact Post.pure ⟨⟨⟨h1.symm, h2⟩, by omega, by omega⟩,
    fun op => (LenLe.cons (StatusType.le _) (.cons op.le (.cons w1 .nil))).mono (Nat.le_refl _)⟩

/-! ### Tags, chunks, logic, forwards -/

theorem ResponseTagHeader.rt (o : ResponseTagHeader) : RT read o.write o := by
  unfold read write; rt
theorem ResponseTagHeader.post : Post read fun _ n => True ∧ n = 2 := by
  unfold read; post
macro_rules | `(tactic| rt_leaf) => `(tactic| with_reducible exact ResponseTagHeader.rt _)
macro_rules | `(tactic| post_leaf) => `(tactic| with_reducible exact ResponseTagHeader.post)

theorem u8le (b : U8) : LenLe (W.u8 b) 8 := (RT.u8 b).lenLe Post.u8'

theorem ResponseTag.rt {o : ResponseTag} (h : o.opcode.code.toNat < 64) :
    RT read (o.write o.opcode) o := by
  unfold read write; rt
theorem ResponseTag.post : OpPost read ResponseTag.write (fun _ => True) (fun _ => 0) :=
  OpPost.ofSize (k := 16) (by unfold read; post) (by omega)
    fun op a => .cons ((ResponseTagHeader.rt a.header).lenLe (f := fun _ => 2) ResponseTagHeader.post)
      (.cons op.le (.cons (u8le _) .nil))

theorem ChunkStep.rt (b : ChunkStep) : RT read b.write b := by
  cases b <;> exact RT.enum (by decide) (by decide) (by decide)
theorem ChunkStep.post : Post read fun _ n => True ∧ n = 2 :=
  Post.enum.mono fun _ _ h => ⟨trivial, h.1⟩
macro_rules | `(tactic| rt_leaf) => `(tactic| with_reducible exact ChunkStep.rt _)
macro_rules | `(tactic| post_leaf) => `(tactic| with_reducible exact ChunkStep.post)

theorem Chunk.rt {o : Chunk} (h : o.opcode.code.toNat < 64) : RT read (o.write o.opcode) o := by
  unfold read write; rt
theorem Chunk.post : OpPost read Chunk.write (fun _ => True) (fun _ => 0) :=
  OpPost.ofSize (k := 8) (by unfold read; post) (by omega)
    fun op a => .cons ((ChunkStep.rt a.step).lenLe (f := fun _ => 2) ChunkStep.post)
      (.cons op.le .nil)

theorem LogicOp.rt (b : LogicOp) : RT read b.write b := by
  cases b <;> exact RT.enum (by decide) (by decide) (by decide)
theorem LogicOp.post : Post read fun _ n => True ∧ n = 2 :=
  Post.enum.mono fun _ _ h => ⟨trivial, h.1⟩
macro_rules | `(tactic| rt_leaf) => `(tactic| with_reducible exact LogicOp.rt _)
macro_rules | `(tactic| post_leaf) => `(tactic| with_reducible exact LogicOp.post)

theorem Logic.rt {o : Logic} (h : o.opcode.code.toNat < 64) : RT read (o.write o.opcode) o := by
  unfold read write; rt
theorem Logic.post : OpPost read Logic.write (fun _ => True) (fun _ => 0) :=
  OpPost.ofSize (k := 8) (by unfold read; post) (by omega)
    fun op a => .cons ((LogicOp.rt a.logic).lenLe (f := fun _ => 2) LogicOp.post)
      (.cons op.le .nil)

theorem _root_.Dash7.InterfaceConfiguration.bits_dvd (cfg : Cfg) (c : InterfaceConfiguration) :
    8 ∣ c.bits cfg := by
  cases c with
  | dash7 c =>
    have := c.addressee.bits_dvd
    simp only [InterfaceConfiguration.bits, Dash7InterfaceConfiguration.bits]
    split <;> omega
  | _ => simp only [InterfaceConfiguration.bits] <;> omega

theorem _root_.Dash7.IndirectInterface.bits_dvd (c : IndirectInterface) : 8 ∣ c.bits := by
  cases c with
  | dash7 a =>
    have := a.bits_dvd
    simp only [IndirectInterface.bits]; omega
  | _ => simp only [IndirectInterface.bits] <;> omega

theorem Forward.rt {cfg : Cfg} {o : Forward} (h : o.opcode.code.toNat < 64)
    (h1 : o.configuration.WF cfg) : RT (read cfg) (o.write cfg o.opcode) o := by
  unfold read write; rt
theorem Forward.post (cfg : Cfg) : OpPost (read cfg) (Forward.write cfg)
    (fun o => o.configuration.WF cfg) (fun _ => 0) := by
  unfold read
  refine Post.bind Post.pad fun _ _ ⟨e1, w1⟩ => ?_
  refine Post.bind Post.flag fun _ _ ⟨e2, w2⟩ => ?_
  refine Post.bind OpCode.post fun _ _ ⟨_, e3⟩ => ?_
  refine Post.bind (InterfaceConfiguration.post cfg) fun c _ ⟨h1, e4⟩ => ?_
  have := c.bits_dvd cfg
  subst e1 e2 e3 e4
  exact Post.pure ⟨⟨h1, by omega, by omega⟩,
    fun op => (LenLe.cons w1 (.cons w2 (.cons op.le (.cons
      ((InterfaceConfiguration.rt h1).lenLe (InterfaceConfiguration.post cfg)) .nil)))).mono
      (Nat.le_refl _)⟩

theorem TxStatusType.rt (b : TxStatusType) : RT read b.write b := by
  cases b <;> exact RT.enum (by decide) (by decide) (by decide)
theorem TxStatusType.post : Post read fun _ n => True ∧ n = 2 :=
  Post.enum.mono fun _ _ h => ⟨trivial, h.1⟩

theorem ForwardHeader.rt (o : ForwardHeader) : RT read o.write o := by
  unfold read write; rt
theorem ForwardHeader.post : Post read fun _ n => True ∧ n = 2 := by
  unfold read; post

theorem RequestTagHeader.rt (o : RequestTagHeader) : RT read o.write o := by
  unfold read write; rt
theorem RequestTagHeader.post : Post read fun _ n => True ∧ n = 2 := by
  unfold read; post

theorem IndirectForwardHeader.rt (o : IndirectForwardHeader) : RT read o.write o := by
  unfold read write; rt
theorem IndirectForwardHeader.post : Post read fun _ n => True ∧ n = 2 := by
  unfold read; post
macro_rules | `(tactic| rt_leaf) => `(tactic| with_reducible exact IndirectForwardHeader.rt _)
macro_rules | `(tactic| post_leaf) => `(tactic| with_reducible exact IndirectForwardHeader.post)

theorem IndirectForward.rt {cfg : Cfg} {o : IndirectForward} (h : o.opcode.code.toNat < 64)
    (h1 : o.WF cfg) : RT (read cfg) (o.write cfg o.opcode) o := by
  have := RT.cond (w := IndirectInterface.write cfg) (p := IndirectInterface.read cfg) h1.1
    fun c hc => IndirectInterface.rt (h1.2 c hc)
  unfold read write; rt
theorem IndirectForward.post (cfg : Cfg) : OpPost (read cfg) (IndirectForward.write cfg)
    (fun o => o.WF cfg) (fun _ => 0) := by
  unfold read
  refine Post.bind IndirectForwardHeader.post fun hd _ ⟨_, e1⟩ => ?_
  refine Post.bind OpCode.post fun _ _ ⟨_, e3⟩ => ?_
  subst e1 e3
  have hcond : Post (P.cond hd.overloaded (IndirectInterface.read cfg)) fun c n =>
      (hd.overloaded = c.isSome ∧ (∀ x, c = some x → x.WF cfg) ∧ 8 ∣ n) ∧
        LenLe (W.opt (IndirectInterface.write cfg) c) n := by
    unfold P.cond
    split
    · rename_i hv
      refine Post.bind (IndirectInterface.post cfg) fun c n ⟨h1, e⟩ => Post.pure ?_
      have := c.bits_dvd
      refine ⟨⟨hv, ?_, by omega⟩, ?_⟩
      · rintro x hx; cases hx; exact h1
      · exact ((IndirectInterface.rt h1).lenLe (IndirectInterface.post cfg)).mono (by omega)
    · rename_i hv
      exact Post.pure ⟨⟨by simpa using hv, by simp, by simp⟩, ⟨[], rfl, by simp⟩⟩
  refine Post.bind hcond fun c _ ⟨⟨h1, h2, _⟩, w⟩ => ?_
  exact Post.pure ⟨⟨⟨h1, h2⟩, by omega, by omega⟩,
    fun op => (LenLe.cons ((IndirectForwardHeader.rt hd).lenLe (f := fun _ => 2)
      IndirectForwardHeader.post) (.cons op.le (.cons w .nil))).mono (Nat.le_refl _)⟩

theorem RequestTag.rt {o : RequestTag} (h : o.opcode.code.toNat < 64) :
    RT read (o.write o.opcode) o := by
  unfold read write; rt
theorem RequestTag.post : OpPost read RequestTag.write (fun _ => True) (fun _ => 0) :=
  OpPost.ofSize (k := 16) (by unfold read; post) (by omega)
    fun op a => .cons (n := 1) ⟨_, rfl, by simp⟩ (.cons (n := 1) ⟨_, rfl, by simp⟩
      (.cons op.le (.cons (u8le _) .nil)))

theorem Extension.rt {o : Extension} (h : o.opcode.code.toNat < 64) :
    RT read (o.write o.opcode) o := by
  unfold read write; rt
theorem Extension.post : OpPost read Extension.write (fun _ => True) (fun _ => 0) :=
  OpPost.ofSize (k := 8) (by unfold read; post) (by omega)
    fun op a => .cons a.header.le (.cons op.le .nil)

/-! ### TX status -/

theorem InterfaceTxStatusOperation.post (cfg : Cfg) :
    Post (read cfg) fun o n => 8 ∣ n ∧ LenLe (o.write cfg) n := by
  unfold read
  refine Post.bind Post.u8 fun i n1 ⟨e1, w1⟩ => ?_
  refine Post.bind Length.post' fun l n2 ⟨h1, w2, k, hk, e2⟩ => ?_
  unfold InterfaceTxStatus.read
  split
  · rename_i hi
    refine Post.bind (txDash7_post cfg) ?_
    rintro _ n3 ⟨c, rfl, h3, e3⟩
    obtain ⟨bs, hw, hd, hl⟩ := (Dash7InterfaceTxStatus.rt h3).size (Dash7InterfaceTxStatus.post cfg)
    have := c.addressee.bits_dvd
    refine Post.pure ⟨by omega, ?_⟩
    exact (LenLe.cons w1 (.cons (lengthPrefixed_le (e := 0) hw
      (by omega) (by omega) (by omega)) .nil)).mono (by omega)
  · rename_i hi
    refine Post.bind (someBytes_post (f := InterfaceTxStatus.other)) ?_
    rintro _ n3 ⟨x, rfl, h3, e3⟩
    refine Post.pure ⟨by omega, ?_⟩
    exact (LenLe.cons w1 (.cons (lenPrefixedBytes_le h3 w2) .nil)).mono (by omega)

theorem TxStatusOperation.post (cfg : Cfg) : Post (read cfg) fun o n =>
    (8 ∣ n + 2 ∧ 8 ≤ n) ∧ ∀ op, LenLe (TxStatusOperation.write cfg op o) n := by
  unfold read
  refine Post.bind Post.enum fun _ _ ⟨e0, _⟩ => ?_
  refine Post.bind Post.pad fun _ _ ⟨e1, w1⟩ => ?_
  refine Post.bind OpCode.post fun _ _ ⟨_, e3⟩ => ?_
  refine Post.bind (InterfaceTxStatusOperation.post cfg) fun c _ ⟨h8, w⟩ => ?_
  subst e0 e1 e3
  exact Post.pure ⟨⟨by omega, by omega⟩,
    fun op => (LenLe.cons (n := 2) ⟨_, rfl, by simp⟩ (.cons w1 (.cons op.le (.cons w .nil)))).mono
      (Nat.le_refl _)⟩

end Op
end Dash7
