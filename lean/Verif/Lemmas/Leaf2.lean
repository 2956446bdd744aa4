import Verif.Lemmas.Leaf

/-!
# Round trips and post-conditions: session, interface, query, file
-/

namespace Dash7

/-- Size bound of an encoding which decodes back. -/
theorem RT.lenLe {α : Type} {p : P α} {w : W} {a : α} {G : α → Prop} {f : α → Nat}
    (h : RT p w a) (hp : Post p fun a n => G a ∧ n = f a) : LenLe w (f a) := by
  obtain ⟨bs, hw, _, h2⟩ := h.length hp
  exact ⟨bs, hw, by omega⟩

/-- Exact size of an encoding which decodes back. -/
theorem RT.size {α : Type} {p : P α} {w : W} {a : α} {G : α → Prop} {f : α → Nat}
    (h : RT p w a) (hp : Post p fun a n => G a ∧ n = f a) :
    ∃ bs, w = .ok bs ∧ Dec p bs a ∧ bs.length = f a := by
  obtain ⟨bs, hw, hd, h2⟩ := h.length hp
  exact ⟨bs, hw, hd, h2.2⟩

theorem W.list_u8 (l : List U8) : W.list W.u8 l = .ok (bytesBits l) := by
  induction l with
  | nil => rfl
  | cons b l ih =>
    have h1 : W.u8 b = .ok (natBits 8 b.toNat) := rfl
    have h2 : W.seq (l.map W.u8) = .ok (bytesBits l) := ih
    simp [W.list, W.seq, h1, h2, bytesBits]

theorem LenLe.bytes (l : List U8) : LenLe (W.list W.u8 l) (8 * l.length) :=
  ⟨_, W.list_u8 l, by simp⟩

/-! ## Data -/

namespace Data

theorem ActionCondition.rt (b : ActionCondition) : RT reader b.writer b := by
  cases b <;> exact RT.enum (by decide) (by decide) (by decide)
theorem ActionCondition.post : Post reader fun _ n => True ∧ n = 3 :=
  Post.enum.mono fun _ _ h => ⟨trivial, h.1⟩
macro_rules | `(tactic| rt_leaf) => `(tactic| with_reducible exact ActionCondition.rt _)
macro_rules | `(tactic| post_leaf) => `(tactic| with_reducible exact ActionCondition.post)

theorem StorageClass.rt (b : StorageClass) : RT read b.write b := by
  cases b <;> exact RT.enum (by decide) (by decide) (by decide)
theorem StorageClass.post : Post read fun _ n => True ∧ n = 2 :=
  Post.enum.mono fun _ _ h => ⟨trivial, h.1⟩
macro_rules | `(tactic| rt_leaf) => `(tactic| with_reducible exact StorageClass.rt _)
macro_rules | `(tactic| post_leaf) => `(tactic| with_reducible exact StorageClass.post)

theorem UserPermissions.rt (b : UserPermissions) : RT reader b.writer b := by
  unfold reader writer; rt
theorem UserPermissions.post : Post reader fun _ n => True ∧ n = 3 := by
  unfold reader; post
macro_rules | `(tactic| rt_leaf) => `(tactic| with_reducible exact UserPermissions.rt _)
macro_rules | `(tactic| post_leaf) => `(tactic| with_reducible exact UserPermissions.post)

theorem FilePermissions.rt (b : FilePermissions) : RT read b.write b := by
  unfold read write; rt
theorem FilePermissions.post : Post read fun _ n => True ∧ n = 8 := by
  unfold read; post
macro_rules | `(tactic| rt_leaf) => `(tactic| with_reducible exact FilePermissions.rt _)
macro_rules | `(tactic| post_leaf) => `(tactic| with_reducible exact FilePermissions.post)

theorem FileProperties.rt (b : FileProperties) : RT read b.write b := by
  unfold read write; rt
theorem FileProperties.post : Post read fun _ n => True ∧ n = 8 := by
  unfold read; post
macro_rules | `(tactic| rt_leaf) => `(tactic| with_reducible exact FileProperties.rt _)
macro_rules | `(tactic| post_leaf) => `(tactic| with_reducible exact FileProperties.post)

theorem FileHeader.rt (b : FileHeader) : RT read b.write b := by
  unfold read write; rt
theorem FileHeader.post : Post read fun _ n => True ∧ n = 96 := by
  unfold read; post

end Data

macro_rules | `(tactic| rt_leaf) => `(tactic| with_reducible exact Data.FileHeader.rt _)
macro_rules | `(tactic| post_leaf) => `(tactic| with_reducible exact Data.FileHeader.post)

/-! ## Session -/

theorem ResponseMode.rt (b : ResponseMode) : RT read b.write b := by
  cases b <;> exact RT.enum (by decide) (by decide) (by decide)
theorem ResponseMode.post : Post read fun _ n => True ∧ n = 3 :=
  Post.enum.mono fun _ _ h => ⟨trivial, h.1⟩
macro_rules | `(tactic| rt_leaf) => `(tactic| with_reducible exact ResponseMode.rt _)
macro_rules | `(tactic| post_leaf) => `(tactic| with_reducible exact ResponseMode.post)

theorem RetryMode.rt (b : RetryMode) : RT read b.write b := by
  cases b <;> exact RT.enum (by decide) (by decide) (by decide)
theorem RetryMode.post : Post read fun _ n => True ∧ n = 3 :=
  Post.enum.mono fun _ _ h => ⟨trivial, h.1⟩
macro_rules | `(tactic| rt_leaf) => `(tactic| with_reducible exact RetryMode.rt _)
macro_rules | `(tactic| post_leaf) => `(tactic| with_reducible exact RetryMode.post)

theorem QoS.rt (b : QoS) : RT read b.write b := by
  unfold read write; rt
theorem QoS.post : Post read fun _ n => True ∧ n = 8 := by
  unfold read; post
macro_rules | `(tactic| rt_leaf) => `(tactic| with_reducible exact QoS.rt _)
macro_rules | `(tactic| post_leaf) => `(tactic| with_reducible exact QoS.post)

theorem Dash7InterfaceStatus.rt {cfg : Cfg} {s : Dash7InterfaceStatus} (h : s.WF cfg) :
    RT (read cfg) (s.write cfg) s := by
  obtain ⟨h1, h2⟩ := h
  unfold read write; rt
theorem Dash7InterfaceStatus.post (cfg : Cfg) :
    Post (read cfg) fun s n => s.WF cfg ∧ n = 80 + s.addressee.bits := by
  unfold read
  iterate 11 refine Post.bind (by post_leaf) fun _ _ _ => ?_
  refine Post.bind VarInt.post fun _ _ ⟨h1, _⟩ => ?_
  refine Post.bind (Addressee.post cfg) fun _ _ ⟨h2, _⟩ => ?_
  exact Post.pure ⟨⟨h1, h2⟩, by dsimp only; omega⟩
macro_rules | `(tactic| rt_leaf) => `(tactic| with_reducible exact Dash7InterfaceStatus.rt (by assumption))

theorem InterfaceFinalStatusCode.rt (c : InterfaceFinalStatusCode) : RT read c.write c := by
  unfold read write
  refine RT.map (RT.u8 _) ?_
  rw [dif_pos c.named]
theorem InterfaceFinalStatusCode.post : Post read fun _ n => True ∧ n = 8 := by
  unfold read
  refine Post.bind (by post_leaf) fun c _ h => ?_
  split
  · exact Post.pure ⟨trivial, by omega⟩
  · exact Post.fail
macro_rules | `(tactic| rt_leaf) => `(tactic| with_reducible exact InterfaceFinalStatusCode.rt _)
macro_rules | `(tactic| post_leaf) => `(tactic| with_reducible exact InterfaceFinalStatusCode.post)

/-- Operand-level condition of a TX status. -/
def Dash7InterfaceTxStatus.WF (cfg : Cfg) (s : Dash7InterfaceTxStatus) : Prop :=
  s.addressee.WF cfg

theorem Dash7InterfaceTxStatus.rt {cfg : Cfg} {s : Dash7InterfaceTxStatus} (h : s.WF cfg) :
    RT (read cfg) (s.write cfg) s := by
  unfold read write
  have : s.addressee.WF cfg := h
  rt
theorem Dash7InterfaceTxStatus.post (cfg : Cfg) :
    Post (read cfg) fun s n => s.WF cfg ∧ n = 96 + s.addressee.bits := by
  unfold read
  iterate 5 refine Post.bind (by post_leaf) fun _ _ _ => ?_
  refine Post.bind (Addressee.post cfg) fun _ _ ⟨h2, _⟩ => ?_
  exact Post.pure ⟨h2, by dsimp only; omega⟩

/-! ## Interface configurations -/

theorem readExecutionDelay.rt {cfg : Cfg} {v : VarInt} (h : v.WF)
    (h' : cfg.variant = .subiot → v = ⟨0, false⟩) :
    RT (readExecutionDelay cfg) (writeExecutionDelay cfg v) v := by
  unfold readExecutionDelay writeExecutionDelay
  cases hv : cfg.variant
  case subiot => rw [h' hv]; exact RT.pure' _
  all_goals exact VarInt.rt h

theorem readExecutionDelay.post (cfg : Cfg) : Post (readExecutionDelay cfg) fun v n =>
    (v.WF ∧ (cfg.variant = .subiot → v = ⟨0, false⟩)) ∧
      n = if cfg.variant = .subiot then 0 else 8 := by
  unfold readExecutionDelay
  cases hv : cfg.variant
  case subiot => exact Post.pure ⟨⟨⟨rfl, by decide⟩, fun _ => rfl⟩, rfl⟩
  all_goals exact VarInt.post.mono fun _ _ ⟨h1, h2⟩ => ⟨⟨h1, by simp⟩, h2⟩

/-- Bits of an interface configuration for DASH7. -/
def Dash7InterfaceConfiguration.bits (cfg : Cfg) (c : Dash7InterfaceConfiguration) : Nat :=
  16 + (if cfg.variant = .subiot then 0 else 8) + c.addressee.bits

theorem Dash7InterfaceConfiguration.rt {cfg : Cfg} {c : Dash7InterfaceConfiguration}
    (h : c.WF cfg) : RT (read cfg) (c.write cfg) c := by
  obtain ⟨h1, h2, h3, h4⟩ := h
  unfold read write
  have := readExecutionDelay.rt h2 h4
  rt
theorem Dash7InterfaceConfiguration.post (cfg : Cfg) :
    Post (read cfg) fun c n => c.WF cfg ∧ n = c.bits cfg := by
  unfold read
  refine Post.bind (by post_leaf) fun _ _ _ => ?_
  refine Post.bind VarInt.post fun _ _ ⟨h1, _⟩ => ?_
  refine Post.bind (readExecutionDelay.post cfg) fun _ _ ⟨⟨h2, h3⟩, _⟩ => ?_
  refine Post.bind (Addressee.post cfg) fun _ _ ⟨h4, _⟩ => ?_
  exact Post.pure ⟨⟨h1, h2, h4, h3⟩, by simp only [bits]; omega⟩
macro_rules | `(tactic| rt_leaf) => `(tactic| with_reducible exact Dash7InterfaceConfiguration.rt (by assumption))

theorem LoRaWANInterfaceConfiguration.rt (c : LoRaWANInterfaceConfiguration) :
    RT read c.write c := by
  unfold read write; rt
theorem LoRaWANInterfaceConfiguration.post : Post read fun _ n => True ∧ n = 24 := by
  unfold read; post
macro_rules | `(tactic| rt_leaf) => `(tactic| with_reducible exact LoRaWANInterfaceConfiguration.rt _)
macro_rules | `(tactic| post_leaf) => `(tactic| with_reducible exact LoRaWANInterfaceConfiguration.post)

theorem LoRaWANOTAAInterfaceConfiguration.rt {c : LoRaWANOTAAInterfaceConfiguration} (h : c.WF) :
    RT read c.write c := by
  obtain ⟨h1, h2, h3⟩ := h
  unfold read write; rt
theorem LoRaWANOTAAInterfaceConfiguration.post : Post read fun c n => c.WF ∧ n = 280 := by
  unfold read
  refine Post.bind (by post_leaf) fun _ _ _ => ?_
  refine Post.bind (Post.bytes 8) fun _ _ ⟨h1, _⟩ => ?_
  refine Post.bind (Post.bytes 8) fun _ _ ⟨h2, _⟩ => ?_
  refine Post.bind (Post.bytes 16) fun _ _ ⟨h3, _⟩ => ?_
  exact Post.pure ⟨⟨h1, h2, h3⟩, by omega⟩
macro_rules | `(tactic| rt_leaf) => `(tactic| with_reducible exact LoRaWANOTAAInterfaceConfiguration.rt (by assumption))

theorem LoRaWANABPInterfaceConfiguration.rt {cfg : Cfg} {c : LoRaWANABPInterfaceConfiguration}
    (h : c.WF) : RT (read cfg) (c.write cfg) c := by
  obtain ⟨h1, h2⟩ := h
  unfold read write; rt
theorem LoRaWANABPInterfaceConfiguration.post (cfg : Cfg) :
    Post (read cfg) fun c n => c.WF ∧ n = 344 := by
  unfold read
  refine Post.bind (by post_leaf) fun _ _ _ => ?_
  refine Post.bind (Post.bytes 16) fun _ _ ⟨h1, _⟩ => ?_
  refine Post.bind (Post.bytes 16) fun _ _ ⟨h2, _⟩ => ?_
  refine Post.bind (by post_leaf) fun _ _ _ => ?_
  refine Post.bind (by post_leaf) fun _ _ _ => ?_
  exact Post.pure ⟨⟨h1, h2⟩, by omega⟩
macro_rules | `(tactic| rt_leaf) => `(tactic| with_reducible exact LoRaWANABPInterfaceConfiguration.rt (by assumption))

/-- Bits of an interface configuration. -/
def InterfaceConfiguration.bits (cfg : Cfg) : InterfaceConfiguration → Nat
  | .host => 8
  | .serial => 8
  | .loRaWanABP _ => 352
  | .loRaWanOTAA _ => 288
  | .dash7 c => 8 + c.bits cfg
  | .unknown _ => 8

theorem u8_toNat_ne {i : U8} {k : Nat} (hk : k < 256) (h : i ≠ BitVec.ofNat 8 k) : i.toNat ≠ k := by
  intro he
  apply h
  apply BitVec.eq_of_toNat_eq
  rw [he, BitVec.toNat_ofNat]
  omega

theorem InterfaceConfiguration.rt {cfg : Cfg} {c : InterfaceConfiguration} (h : c.WF cfg) :
    RT (read cfg) (c.write cfg) c := by
  unfold read
  cases c with
  | host =>
    show RT _ (W.seq [W.u8 0x00]) _
    refine RT.cons (RT.u8 _) ?_
    exact RT.pure _
  | serial =>
    show RT _ (W.seq [W.u8 0x01]) _
    refine RT.cons (RT.u8 _) ?_
    exact RT.pure _
  | loRaWanABP c =>
    have : c.WF := h
    exact RT.cons (RT.u8 _) (RT.cons (by rt_leaf) (RT.pure _))
  | loRaWanOTAA c =>
    have : c.WF := h
    exact RT.cons (RT.u8 _) (RT.cons (by rt_leaf) (RT.pure _))
  | dash7 c =>
    have : c.WF cfg := h
    exact RT.cons (RT.u8 _) (RT.cons (by rt_leaf) (RT.pure _))
  | unknown i =>
    obtain ⟨h0, h1, h2, h3, h4⟩ := h
    have h0 := u8_toNat_ne (k := 0) (by decide) h0
    have h1 := u8_toNat_ne (k := 1) (by decide) h1
    have h2 := u8_toNat_ne (k := 2) (by decide) h2
    have h3 := u8_toNat_ne (k := 3) (by decide) h3
    have h4 := u8_toNat_ne (k := 0xD7) (by decide) h4
    show RT _ (W.seq [W.u8 i]) _
    refine RT.cons (RT.u8 i) ?_
    split <;> first | contradiction | exact RT.pure _

theorem InterfaceConfiguration.post (cfg : Cfg) :
    Post (read cfg) fun c n => c.WF cfg ∧ n = c.bits cfg := by
  unfold read
  refine Post.bind (by post_leaf) fun i _ hi => ?_
  split
  · exact Post.pure ⟨trivial, by simp only [bits]; omega⟩
  · exact Post.pure ⟨trivial, by simp only [bits]; omega⟩
  · refine Post.bind (LoRaWANABPInterfaceConfiguration.post cfg) fun _ _ ⟨h1, _⟩ => ?_
    exact Post.pure ⟨h1, by simp only [bits]; omega⟩
  · refine Post.bind LoRaWANOTAAInterfaceConfiguration.post fun _ _ ⟨h1, _⟩ => ?_
    exact Post.pure ⟨h1, by simp only [bits]; omega⟩
  · refine Post.bind (Dash7InterfaceConfiguration.post cfg) fun _ _ ⟨h1, _⟩ => ?_
    exact Post.pure ⟨h1, by simp only [bits]; omega⟩
  · rename_i h0 h1 h2 h3 h4
    refine Post.pure ⟨⟨?_, ?_, ?_, ?_, ?_⟩, by simp only [bits]; omega⟩ <;> rintro rfl
    · exact h0 rfl
    · exact h1 rfl
    · exact h2 rfl
    · exact h3 rfl
    · exact h4 rfl
macro_rules | `(tactic| rt_leaf) => `(tactic| with_reducible exact InterfaceConfiguration.rt (by assumption))

/-- Bits of an indirect interface. -/
def IndirectInterface.bits : IndirectInterface → Nat
  | .dash7 a => 8 + a.bits
  | _ => 8

theorem IndirectInterface.rt {cfg : Cfg} {c : IndirectInterface} (h : c.WF cfg) :
    RT (read cfg) (c.write cfg) c := by
  unfold read
  cases c with
  | host =>
    show RT _ (W.seq [W.u8 0x00]) _
    refine RT.cons (RT.u8 _) ?_
    exact RT.pure _
  | serial =>
    show RT _ (W.seq [W.u8 0x01]) _
    refine RT.cons (RT.u8 _) ?_
    exact RT.pure _
  | dash7 c =>
    have : c.WF cfg := h
    exact RT.cons (RT.u8 _) (RT.cons (by rt_leaf) (RT.pure _))
  | unknown i =>
    obtain ⟨h0, h1, h4⟩ := h
    have h0 := u8_toNat_ne (k := 0) (by decide) h0
    have h1 := u8_toNat_ne (k := 1) (by decide) h1
    have h4 := u8_toNat_ne (k := 0xD7) (by decide) h4
    show RT _ (W.seq [W.u8 i]) _
    refine RT.cons (RT.u8 i) ?_
    split <;> first | contradiction | exact RT.pure _

theorem IndirectInterface.post (cfg : Cfg) :
    Post (read cfg) fun c n => c.WF cfg ∧ n = c.bits := by
  unfold read
  refine Post.bind (by post_leaf) fun i _ hi => ?_
  split
  · exact Post.pure ⟨trivial, by simp only [bits]; omega⟩
  · exact Post.pure ⟨trivial, by simp only [bits]; omega⟩
  · refine Post.bind (Addressee.post cfg) fun _ _ ⟨h1, _⟩ => ?_
    exact Post.pure ⟨h1, by simp only [bits]; omega⟩
  · rename_i h0 h1 h4
    refine Post.pure ⟨⟨?_, ?_, ?_⟩, by simp only [bits]; omega⟩ <;> rintro rfl
    · exact h0 rfl
    · exact h1 rfl
    · exact h4 rfl

/-! ## Queries -/

theorem ArithmeticComparisonType.rt (b : ArithmeticComparisonType) : RT read b.write b := by
  cases b <;> exact RT.enum (by decide) (by decide) (by decide)
theorem ArithmeticComparisonType.post : Post read fun _ n => True ∧ n = 3 :=
  Post.enum.mono fun _ _ h => ⟨trivial, h.1⟩
macro_rules | `(tactic| rt_leaf) => `(tactic| with_reducible exact ArithmeticComparisonType.rt _)
macro_rules | `(tactic| post_leaf) => `(tactic| with_reducible exact ArithmeticComparisonType.post)

theorem ArithmeticQueryParams.rt (b : ArithmeticQueryParams) : RT read b.write b := by
  unfold read write; rt
theorem ArithmeticQueryParams.post' : Post read fun _ n => True ∧ n = 4 := by
  unfold read; post
theorem ArithmeticQueryParams.post : Post read fun p n => (True ∧ n = 4) ∧ LenLe p.write n :=
  Post.withLen (f := fun _ => 4) post' fun p _ => rt p
macro_rules | `(tactic| rt_leaf) => `(tactic| with_reducible exact ArithmeticQueryParams.rt _)

theorem RangeComparisonType.rt (b : RangeComparisonType) : RT read b.write b := by
  cases b <;> exact RT.enum (by decide) (by decide) (by decide)
theorem RangeComparisonType.post : Post read fun _ n => True ∧ n = 3 :=
  Post.enum.mono fun _ _ h => ⟨trivial, h.1⟩
macro_rules | `(tactic| rt_leaf) => `(tactic| with_reducible exact RangeComparisonType.rt _)
macro_rules | `(tactic| post_leaf) => `(tactic| with_reducible exact RangeComparisonType.post)

theorem RangeQueryParams.rt (b : RangeQueryParams) : RT read b.write b := by
  unfold read write; rt
theorem RangeQueryParams.post' : Post read fun _ n => True ∧ n = 4 := by
  unfold read; post
theorem RangeQueryParams.post : Post read fun p n => (True ∧ n = 4) ∧ LenLe p.write n :=
  Post.withLen (f := fun _ => 4) post' fun p _ => rt p
macro_rules | `(tactic| rt_leaf) => `(tactic| with_reducible exact RangeQueryParams.rt _)

theorem readMaskIf.rt {b : Bool} {l : Length} {m : List U8}
    (h : if b then m.length = l.toNat else m = []) :
    RT (readMaskIf b l) (W.list W.u8 m) m := by
  unfold readMaskIf
  cases b
  · simp only [Bool.false_eq_true, if_false] at h ⊢
    subst h; exact RT.pure _
  · simp only [if_true] at h ⊢
    exact RT.bytes h

theorem readMaskIf.post (b : Bool) (l : Length) : Post (readMaskIf b l) fun m n =>
    (if b then m.length = l.toNat else m = []) ∧ n = 8 * m.length := by
  unfold readMaskIf
  cases b
  · exact Post.pure ⟨by simp, rfl⟩
  · exact (Post.bytes _).mono fun m n ⟨h1, h2⟩ => ⟨by simpa using h1, by omega⟩

theorem bytesLe {m : List U8} {n : Nat} (h : n = 8 * m.length) : LenLe (W.list W.u8 m) n :=
  h ▸ LenLe.bytes m

theorem NonVoid.rt {q : NonVoid} (h : q.length.WF ∧ q.file.WF) : RT read q.write q := by
  obtain ⟨h1, h2⟩ := h
  unfold read write; rt
theorem NonVoid.post : Post read fun q n =>
    ((q.length.WF ∧ q.file.WF) ∧ 8 ∣ n + 3) ∧ LenLe q.write n := by
  unfold read
  refine Post.bind Post.pad fun _ _ ⟨_, w1⟩ => ?_
  refine Post.bind Length.post fun _ _ ⟨⟨h1, _⟩, w2⟩ => ?_
  refine Post.bind FileOffset.post fun _ _ ⟨⟨h2, _, _⟩, w3⟩ => ?_
  exact Post.pure ⟨⟨⟨h1, h2⟩, by omega⟩, LenLe.cons w1 (LenLe.cons w2 (LenLe.cons w3 LenLe.nil))⟩

theorem ComparisonWithZero.rt {q : ComparisonWithZero}
    (h : (Query.comparisonWithZero q).WF) : RT read q.write q := by
  obtain ⟨h1, h2, h3⟩ := h
  have := readMaskIf.rt h3
  unfold read write; rt
theorem ComparisonWithZero.post : Post read fun q n =>
    ((Query.comparisonWithZero q).WF ∧ 8 ∣ n + 3) ∧ LenLe q.write n := by
  unfold read
  refine Post.bind Post.flag fun _ _ ⟨_, w1⟩ => ?_
  refine Post.bind ArithmeticQueryParams.post fun _ _ ⟨_, w2⟩ => ?_
  refine Post.bind Length.post fun _ _ ⟨⟨h1, _⟩, w3⟩ => ?_
  refine Post.bind (readMaskIf.post _ _) fun _ _ ⟨h2, h3⟩ => ?_
  refine Post.bind FileOffset.post fun _ _ ⟨⟨h4, _, _⟩, w4⟩ => ?_
  exact Post.pure ⟨⟨⟨h1, h4, h2⟩, by omega⟩,
    .cons w1 (.cons w2 (.cons w3 (.cons (bytesLe h3) (.cons w4 .nil))))⟩

theorem ComparisonWithValue.rt {q : ComparisonWithValue}
    (h : (Query.comparisonWithValue q).WF) : RT read q.write q := by
  obtain ⟨h1, h2, h4, h3⟩ := h
  have := readMaskIf.rt h3
  unfold read write; rt
theorem ComparisonWithValue.post : Post read fun q n =>
    ((Query.comparisonWithValue q).WF ∧ 8 ∣ n + 3) ∧ LenLe q.write n := by
  unfold read
  refine Post.bind Post.flag fun _ _ ⟨_, w1⟩ => ?_
  refine Post.bind ArithmeticQueryParams.post fun _ _ ⟨_, w2⟩ => ?_
  refine Post.bind Length.post fun _ _ ⟨⟨h1, _⟩, w3⟩ => ?_
  refine Post.bind (readMaskIf.post _ _) fun _ _ ⟨h2, h3⟩ => ?_
  refine Post.bind (Post.bytes _) fun _ _ ⟨h5, h6⟩ => ?_
  refine Post.bind FileOffset.post fun _ _ ⟨⟨h4, _, _⟩, w4⟩ => ?_
  exact Post.pure ⟨⟨⟨h1, h4, h5, h2⟩, by omega⟩,
    .cons w1 (.cons w2 (.cons w3 (.cons (bytesLe h3) (.cons (bytesLe (h5 ▸ h6)) (.cons w4 .nil)))))⟩

theorem ComparisonWithOtherFile.rt {q : ComparisonWithOtherFile}
    (h : (Query.comparisonWithOtherFile q).WF) : RT read q.write q := by
  obtain ⟨h1, h2, h4, h3⟩ := h
  have := readMaskIf.rt h3
  unfold read write; rt
theorem ComparisonWithOtherFile.post : Post read fun q n =>
    ((Query.comparisonWithOtherFile q).WF ∧ 8 ∣ n + 3) ∧ LenLe q.write n := by
  unfold read
  refine Post.bind Post.flag fun _ _ ⟨_, w1⟩ => ?_
  refine Post.bind ArithmeticQueryParams.post fun _ _ ⟨_, w2⟩ => ?_
  refine Post.bind Length.post fun _ _ ⟨⟨h1, _⟩, w3⟩ => ?_
  refine Post.bind (readMaskIf.post _ _) fun _ _ ⟨h2, h3⟩ => ?_
  refine Post.bind FileOffset.post fun _ _ ⟨⟨h4, _, _⟩, w4⟩ => ?_
  refine Post.bind FileOffset.post fun _ _ ⟨⟨h5, _, _⟩, w5⟩ => ?_
  exact Post.pure ⟨⟨⟨h1, h4, h5, h2⟩, by omega⟩,
    .cons w1 (.cons w2 (.cons w3 (.cons (bytesLe h3) (.cons w4 (.cons w5 .nil)))))⟩

theorem BitmapRangeComparison.rt {q : BitmapRangeComparison}
    (h : (Query.bitmapRangeComparison q).WF) : RT read q.write q := by
  obtain ⟨h1, h2, h4, h3, h5⟩ := h
  unfold read write; rt
theorem BitmapRangeComparison.post : Post read fun q n =>
    ((Query.bitmapRangeComparison q).WF ∧ 8 ∣ n + 3) ∧ LenLe q.write n := by
  unfold read
  refine Post.bind Post.flag fun _ _ ⟨_, w1⟩ => ?_
  refine Post.bind RangeQueryParams.post fun _ _ ⟨_, w2⟩ => ?_
  refine Post.bind Length.post fun _ _ ⟨⟨h1, _⟩, w3⟩ => ?_
  refine Post.bind Length.post fun _ _ ⟨⟨h2, _⟩, w4⟩ => ?_
  refine Post.bind Length.post fun _ _ ⟨⟨h3, _⟩, w5⟩ => ?_
  refine Post.bind (Post.bytes _) fun _ _ ⟨h5, h6⟩ => ?_
  refine Post.bind FileOffset.post fun _ _ ⟨⟨h4, _, _⟩, w6⟩ => ?_
  exact Post.pure ⟨⟨⟨h1, h2, h3, h4, h5⟩, by omega⟩,
    .cons w1 (.cons w2 (.cons w3 (.cons w4 (.cons w5 (.cons (bytesLe (h5 ▸ h6)) (.cons w6 .nil))))))⟩

theorem StringTokenSearch.rt {q : StringTokenSearch}
    (h : (Query.stringTokenSearch q).WF) : RT read q.write q := by
  obtain ⟨h1, h2, h4, h3, h5⟩ := h
  unfold read write
  refine RT.cons (by rt_leaf) (RT.cons (by rt_leaf) (RT.cons (RT.uint (by omega) h4) ?_))
  rt
theorem StringTokenSearch.post : Post read fun q n =>
    ((Query.stringTokenSearch q).WF ∧ 8 ∣ n + 3) ∧ LenLe q.write n := by
  unfold read
  refine Post.bind Post.flag fun _ _ ⟨_, w1⟩ => ?_
  refine Post.bind Post.pad fun _ _ ⟨_, w2⟩ => ?_
  refine Post.bind Post.uint fun _ _ ⟨_, _, h2, w3⟩ => ?_
  refine Post.bind Length.post fun _ _ ⟨⟨h1, _⟩, w4⟩ => ?_
  refine Post.bind (Post.bytes _) fun _ _ ⟨h5, h6⟩ => ?_
  refine Post.bind (Post.bytes _) fun _ _ ⟨h7, h8⟩ => ?_
  refine Post.bind FileOffset.post fun _ _ ⟨⟨h4, _, _⟩, w6⟩ => ?_
  exact Post.pure ⟨⟨⟨h1, h4, h2, h5, h7⟩, by omega⟩,
    .cons w1 (.cons w2 (.cons w3 (.cons w4 (.cons (bytesLe (h5 ▸ h6))
      (.cons (bytesLe (h7 ▸ h8)) (.cons w6 .nil))))))⟩

theorem Query.rt {q : Query} (h : q.WF) : RT read q.write q := by
  unfold read
  cases q with
  | nonVoid q =>
    exact RT.cons (RT.uint (by decide) (by decide)) (RT.cons (NonVoid.rt h) (RT.pure _))
  | comparisonWithZero q =>
    exact RT.cons (RT.uint (by decide) (by decide)) (RT.cons (ComparisonWithZero.rt h) (RT.pure _))
  | comparisonWithValue q =>
    exact RT.cons (RT.uint (by decide) (by decide)) (RT.cons (ComparisonWithValue.rt h) (RT.pure _))
  | comparisonWithOtherFile q =>
    exact RT.cons (RT.uint (by decide) (by decide))
      (RT.cons (ComparisonWithOtherFile.rt h) (RT.pure _))
  | bitmapRangeComparison q =>
    exact RT.cons (RT.uint (by decide) (by decide))
      (RT.cons (BitmapRangeComparison.rt h) (RT.pure _))
  | stringTokenSearch q =>
    exact RT.cons (RT.uint (by decide) (by decide)) (RT.cons (StringTokenSearch.rt h) (RT.pure _))

theorem uint3Le (k : U8) : LenLe (W.uint 3 k) 3 := ⟨_, rfl, by simp⟩

theorem Query.post : Post read fun q n => (q.WF ∧ 8 ∣ n) ∧ LenLe q.write n := by
  unfold read
  refine Post.bind Post.uint fun i n ⟨hn, _, _, _⟩ => ?_
  subst hn
  split
  · exact Post.bind NonVoid.post fun _ _ ⟨⟨h1, h2⟩, w⟩ => Post.pure
      ⟨⟨h1, by omega⟩, .cons (uint3Le _) (.cons w .nil)⟩
  · exact Post.bind ComparisonWithZero.post fun _ _ ⟨⟨h1, h2⟩, w⟩ => Post.pure
      ⟨⟨h1, by omega⟩, .cons (uint3Le _) (.cons w .nil)⟩
  · exact Post.bind ComparisonWithValue.post fun _ _ ⟨⟨h1, h2⟩, w⟩ => Post.pure
      ⟨⟨h1, by omega⟩, .cons (uint3Le _) (.cons w .nil)⟩
  · exact Post.bind ComparisonWithOtherFile.post fun _ _ ⟨⟨h1, h2⟩, w⟩ => Post.pure
      ⟨⟨h1, by omega⟩, .cons (uint3Le _) (.cons w .nil)⟩
  · exact Post.bind BitmapRangeComparison.post fun _ _ ⟨⟨h1, h2⟩, w⟩ => Post.pure
      ⟨⟨h1, by omega⟩, .cons (uint3Le _) (.cons w .nil)⟩
  · exact Post.bind StringTokenSearch.post fun _ _ ⟨⟨h1, h2⟩, w⟩ => Post.pure
      ⟨⟨h1, by omega⟩, .cons (uint3Le _) (.cons w .nil)⟩
  · exact Post.fail
macro_rules | `(tactic| rt_leaf) => `(tactic| with_reducible exact Query.rt (by assumption))

end Dash7
