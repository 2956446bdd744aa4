import Verif.Lemmas.Types

/-!
# Round trips and post-conditions of the simple types

`rt_leaf` / `post_leaf` are extensible: each type adds its own lemma.
-/

namespace Dash7

/-- Closes a goal `RT field.read field.write field`. -/
syntax "rt_leaf" : tactic
macro_rules | `(tactic| rt_leaf) => `(tactic| with_reducible exact RT.u8 _)
macro_rules | `(tactic| rt_leaf) => `(tactic| with_reducible exact RT.uintFull _)
macro_rules | `(tactic| rt_leaf) => `(tactic| with_reducible exact RT.flag _)
macro_rules | `(tactic| rt_leaf) => `(tactic| with_reducible exact RT.pad _)
macro_rules | `(tactic| rt_leaf) => `(tactic| with_reducible exact RT.uintHost _ _)
macro_rules | `(tactic| rt_leaf) => `(tactic| assumption)

/-- Field after field. -/
macro "rt" : tactic =>
  `(tactic| repeat (first | exact RT.pure _ | refine RT.cons (by rt_leaf) ?_))

/-- Finds a post-condition for a field. -/
syntax "post_leaf" : tactic
macro_rules | `(tactic| post_leaf) => `(tactic| with_reducible exact Post.u8)
macro_rules | `(tactic| post_leaf) => `(tactic| with_reducible exact Post.uint)
macro_rules | `(tactic| post_leaf) => `(tactic| with_reducible exact Post.flag)
macro_rules | `(tactic| post_leaf) => `(tactic| with_reducible exact Post.pad)
macro_rules | `(tactic| post_leaf) => `(tactic| with_reducible exact Post.uintHost)
macro_rules | `(tactic| post_leaf) => `(tactic| assumption)

/-- Field after field, then arithmetic. -/
macro "post" : tactic =>
  `(tactic| repeat (first
      | exact Post.pure (by (try dsimp only); omega)
      | exact Post.pure (by (try dsimp only); first | trivial | (refine ⟨?_, ?_⟩ <;> first | trivial | omega))
      | refine Post.bind (by post_leaf) fun _ _ _ => ?_))

/-- A reader of which the consumed size is determined by the value. -/
theorem Post.withLen {α : Type} {p : P α} {w : α → W} {G : α → Prop} {f : α → Nat}
    (hp : Post p fun a n => G a ∧ n = f a) (hrt : ∀ a, G a → RT p (w a) a) :
    Post p (fun a n => (G a ∧ n = f a) ∧ LenLe (w a) n) := by
  refine hp.mono fun a n ⟨h1, h2⟩ => ⟨⟨h1, h2⟩, ?_⟩
  obtain ⟨bs, hw, hd⟩ := hrt a h1
  have := hp bs [] a (by simpa using hd [])
  exact ⟨bs, hw, by omega⟩

/-- The size of an encoding which decodes back. -/
theorem RT.length {α : Type} {p : P α} {w : W} {a : α} {Q : α → Nat → Prop} (h : RT p w a)
    (hp : Post p Q) : ∃ bs, w = .ok bs ∧ Dec p bs a ∧ Q a bs.length := by
  obtain ⟨bs, hw, hd⟩ := h
  exact ⟨bs, hw, hd, hp bs [] a (by simpa using hd [])⟩

/-! ## Physical -/

theorem Bandwidth.rt (b : Bandwidth) : RT read b.write b := by
  cases b <;> exact RT.enum (by decide) (by decide) (by decide)
theorem Bandwidth.post : Post read fun _ n => True ∧ n = 2 := Post.enum.mono fun _ _ h => ⟨trivial, h.1⟩
macro_rules | `(tactic| rt_leaf) => `(tactic| with_reducible exact Bandwidth.rt _)
macro_rules | `(tactic| post_leaf) => `(tactic| with_reducible exact Bandwidth.post)

theorem ChannelBand.rt (b : ChannelBand) : RT read b.write b := by
  cases b <;> exact RT.enum (by decide) (by decide) (by decide)
theorem ChannelBand.post : Post read fun _ n => True ∧ n = 3 := Post.enum.mono fun _ _ h => ⟨trivial, h.1⟩
macro_rules | `(tactic| rt_leaf) => `(tactic| with_reducible exact ChannelBand.rt _)
macro_rules | `(tactic| post_leaf) => `(tactic| with_reducible exact ChannelBand.post)

theorem ChannelClass.rt (b : ChannelClass) : RT read b.write b := by
  cases b <;> exact RT.enum (by decide) (by decide) (by decide)
theorem ChannelClass.post : Post read fun _ n => True ∧ n = 2 := Post.enum.mono fun _ _ h => ⟨trivial, h.1⟩
macro_rules | `(tactic| rt_leaf) => `(tactic| with_reducible exact ChannelClass.rt _)
macro_rules | `(tactic| post_leaf) => `(tactic| with_reducible exact ChannelClass.post)

theorem ChannelCoding.rt (b : ChannelCoding) : RT read b.write b := by
  cases b <;> exact RT.enum (by decide) (by decide) (by decide)
theorem ChannelCoding.post : Post read fun _ n => True ∧ n = 2 := Post.enum.mono fun _ _ h => ⟨trivial, h.1⟩
macro_rules | `(tactic| rt_leaf) => `(tactic| with_reducible exact ChannelCoding.rt _)
macro_rules | `(tactic| post_leaf) => `(tactic| with_reducible exact ChannelCoding.post)

theorem ChannelHeader.rt (h : ChannelHeader) : RT read h.write h := by
  unfold read write; rt
theorem ChannelHeader.post : Post read fun _ n => True ∧ n = 8 := by
  unfold read; post
macro_rules | `(tactic| rt_leaf) => `(tactic| with_reducible exact ChannelHeader.rt _)
macro_rules | `(tactic| post_leaf) => `(tactic| with_reducible exact ChannelHeader.post)

theorem Channel.rt (h : Channel) : RT read h.write h := by
  unfold read write; rt
theorem Channel.post : Post read fun _ n => True ∧ n = 24 := by
  unfold read; post
macro_rules | `(tactic| rt_leaf) => `(tactic| with_reducible exact Channel.rt _)
macro_rules | `(tactic| post_leaf) => `(tactic| with_reducible exact Channel.post)

theorem ChannelStatusIdentifier.rt {c : ChannelStatusIdentifier} (h : c.WF) :
    RT read c.write c := by
  unfold read write
  refine RT.cons (by rt_leaf) (RT.cons (by rt_leaf) (RT.cons (RT.uint (by omega) h) (RT.pure _)))
theorem ChannelStatusIdentifier.post : Post read fun c n => c.WF ∧ n = 16 := by
  unfold read
  refine Post.bind (by post_leaf) fun _ _ _ => ?_
  refine Post.bind (by post_leaf) fun _ _ _ => ?_
  refine Post.bind Post.uint fun i n ⟨h1, _, h2, _⟩ => ?_
  exact Post.pure ⟨h2, by omega⟩
macro_rules | `(tactic| rt_leaf) => `(tactic| with_reducible exact ChannelStatusIdentifier.rt (by assumption))
macro_rules | `(tactic| post_leaf) => `(tactic| with_reducible exact ChannelStatusIdentifier.post)

theorem SubBand.rt (h : SubBand) : RT read h.write h := by
  unfold read write; rt
theorem SubBand.post : Post read fun _ n => True ∧ n = 56 := by
  unfold read; post
macro_rules | `(tactic| rt_leaf) => `(tactic| with_reducible exact SubBand.rt _)
macro_rules | `(tactic| post_leaf) => `(tactic| with_reducible exact SubBand.post)

theorem ChannelStatus.rt {c : ChannelStatus} (h : c.WF) : RT read c.write c := by
  unfold read write
  have : c.identifier.WF := h
  rt
theorem ChannelStatus.post : Post read fun c n => c.WF ∧ n = 24 := by
  unfold read
  refine Post.bind ChannelStatusIdentifier.post fun _ _ ⟨h, _⟩ => ?_
  refine Post.bind (by post_leaf) fun _ _ _ => ?_
  exact Post.pure ⟨h, by omega⟩

/-! ## Counted sizes -/

theorem Post.countSize {α : Type} {p : P α} {G : α → Prop} {k : Nat}
    (h : Post p fun a n => G a ∧ n = k) (m : Nat) :
    Post (P.count p m) (fun l n => (l.length = m ∧ ∀ a ∈ l, G a) ∧ n = k * m) := by
  induction m with
  | zero => exact pure ⟨⟨rfl, by simp⟩, by simp⟩
  | succ m ih =>
    refine bind h fun a n ⟨h1, h2⟩ => bind ih fun l n' ⟨⟨h3, h4⟩, h5⟩ => pure ⟨⟨by simp [h3], ?_⟩, ?_⟩
    · intro b hb
      rcases List.mem_cons.mp hb with rfl | hb
      · exact h1
      · exact h4 b hb
    · rw [Nat.mul_succ]; omega

theorem Post.arraySize {α : Type} {p : P α} {G : α → Prop} {k : Nat}
    (h : Post p fun a n => G a ∧ n = k) (m : Nat) :
    Post (P.array p m) (fun l n => (∀ a ∈ l, G a) ∧ n = k * m) := by
  induction m with
  | zero => exact pure ⟨by simp, by simp⟩
  | succ m ih =>
    refine bind ih fun l n' ⟨h4, h5⟩ => bind h fun a n ⟨h1, h2⟩ => pure ⟨?_, ?_⟩
    · intro b hb
      rcases Vector.mem_push.mp hb with hb | rfl
      · exact h4 b hb
      · exact h1
    · rw [Nat.mul_succ]; omega

theorem Post.u8' : Post P.u8 fun _ n => True ∧ n = 8 := Post.u8.mono fun _ _ h => ⟨trivial, h.1⟩

/-- Counted bytes. -/
theorem Post.bytes (m : Nat) :
    Post (P.count P.u8 m) (fun l n => l.length = m ∧ n = 8 * m) :=
  (Post.countSize Post.u8' m).mono fun _ _ h => ⟨h.1.1, h.2⟩
macro_rules | `(tactic| post_leaf) => `(tactic| with_reducible exact Post.bytes _)

theorem Post.byteArray (m : Nat) : Post (P.array P.u8 m) (fun _ n => True ∧ n = 8 * m) :=
  (Post.arraySize Post.u8' m).mono fun _ _ h => ⟨trivial, h.2⟩
macro_rules | `(tactic| post_leaf) => `(tactic| with_reducible exact Post.byteArray _)

theorem RT.bytes {l : List U8} {n : Nat} (h : l.length = n) :
    RT (P.count P.u8 n) (W.list W.u8 l) l := RT.count' h fun _ _ => RT.u8 _
macro_rules | `(tactic| rt_leaf) => `(tactic| with_reducible exact RT.bytes (by assumption))

theorem RT.byteArray {n : Nat} (v : Vector U8 n) :
    RT (P.array P.u8 n) (W.list W.u8 v.toList) v := RT.array fun _ _ => RT.u8 _
macro_rules | `(tactic| rt_leaf) => `(tactic| with_reducible exact RT.byteArray _)

macro_rules | `(tactic| rt_leaf) => `(tactic| with_reducible exact VarInt.rt (by assumption))
macro_rules | `(tactic| post_leaf) => `(tactic| with_reducible exact VarInt.post)
macro_rules | `(tactic| rt_leaf) => `(tactic| with_reducible exact Length.rt (by assumption))
macro_rules | `(tactic| post_leaf) => `(tactic| with_reducible exact Length.post)

theorem FileOffset.rt {f : FileOffset} (h : f.WF) : RT read f.write f := by
  unfold read write
  have : f.offset.WF := h
  rt
theorem FileOffset.post : Post read fun f n => (f.WF ∧ 8 ∣ n ∧ 16 ≤ n) ∧ LenLe f.write n := by
  unfold read
  refine Post.bind Post.u8 fun b n1 h1 => ?_
  refine Post.bind Length.post' fun l n2 ⟨h2, h3, k, h4, h5⟩ => ?_
  exact Post.pure ⟨⟨h2, by omega, by omega⟩, LenLe.cons h1.2 (LenLe.cons h3 LenLe.nil)⟩
macro_rules | `(tactic| rt_leaf) => `(tactic| with_reducible exact FileOffset.rt (by assumption))
macro_rules | `(tactic| post_leaf) => `(tactic| with_reducible exact FileOffset.post)

/-! ## Link, network -/

theorem SubProfile.rt {s : SubProfile} (h : s.WF) : RT read s.write s := by
  unfold read write
  have : s.scanAutomationPeriod.WF := h
  rt
theorem SubProfile.post : Post read fun s n => s.WF ∧ n = 16 := by
  unfold read
  refine Post.bind (by post_leaf) fun _ _ _ => ?_
  refine Post.bind VarInt.post fun _ _ ⟨h, _⟩ => ?_
  exact Post.pure ⟨h, by omega⟩

theorem AccessClass.rt {a : AccessClass} (h : a.WF) : RT read a.write a := by
  unfold read write
  refine RT.cons (RT.uint (by omega) h.1) (RT.cons (RT.uint (by omega) h.2) (RT.pure _))
theorem AccessClass.post : Post read fun a n => a.WF ∧ n = 8 := by
  unfold read
  refine Post.bind Post.uint fun _ _ ⟨_, _, h1, _⟩ => ?_
  refine Post.bind Post.uint fun _ _ ⟨_, _, h2, _⟩ => ?_
  exact Post.pure ⟨⟨h1, h2⟩, by omega⟩
macro_rules | `(tactic| rt_leaf) => `(tactic| with_reducible exact AccessClass.rt (by assumption))
macro_rules | `(tactic| post_leaf) => `(tactic| with_reducible exact AccessClass.post)

theorem AccessProfile.rt {a : AccessProfile} (h : a.WF) : RT read a.write a := by
  unfold read write
  refine RT.cons (by rt_leaf) ?_
  refine RT.cons (RT.array fun s hs => SubProfile.rt (h s hs)) ?_
  refine RT.cons (RT.array fun s _ => SubBand.rt s) ?_
  exact RT.pure _
theorem AccessProfile.post : Post read fun a n => a.WF ∧ n = 520 := by
  unfold read
  refine Post.bind (by post_leaf) fun _ _ _ => ?_
  refine Post.bind (Post.arraySize SubProfile.post 4) fun _ _ ⟨h, _⟩ => ?_
  refine Post.bind (Post.arraySize SubBand.post 8) fun _ _ _ => ?_
  exact Post.pure ⟨h, by omega⟩

theorem GroupCondition.rt (b : GroupCondition) : RT read b.write b := by
  cases b <;> exact RT.enum (by decide) (by decide) (by decide)
theorem GroupCondition.post : Post read fun _ n => True ∧ n = 2 := Post.enum.mono fun _ _ h => ⟨trivial, h.1⟩
macro_rules | `(tactic| rt_leaf) => `(tactic| with_reducible exact GroupCondition.rt _)
macro_rules | `(tactic| post_leaf) => `(tactic| with_reducible exact GroupCondition.post)

theorem NlsMethod.rt (cfg : Cfg) (m : NlsMethod) : RT (read cfg) (m.write cfg) m := by
  unfold read write width
  cases cfg.variant <;> cases m <;> exact RT.enum (by decide) (by decide) (by decide)
theorem NlsMethod.post (cfg : Cfg) : Post (read cfg) fun _ n => True ∧ n = width cfg :=
  Post.enum.mono fun _ _ h => ⟨trivial, h.1⟩
macro_rules | `(tactic| rt_leaf) => `(tactic| with_reducible exact NlsMethod.rt _ _)
macro_rules | `(tactic| post_leaf) => `(tactic| with_reducible exact NlsMethod.post _)

theorem NlsState.rt (s : NlsState) : RT (read s.method) s.write s := by
  cases s
  case none => exact RT.pure' _
  all_goals exact RT.map (RT.byteArray _) rfl
theorem NlsState.post (m : NlsMethod) : Post (read m) fun s n => s.method = m ∧
    n = if m = .none then 0 else 40 := by
  cases m
  case none => exact Post.pure ⟨rfl, rfl⟩
  all_goals
    unfold read
    refine Post.bind (by post_leaf) fun _ _ h => ?_
    exact Post.pure ⟨rfl, by simpa using h.2⟩

theorem AddressType.rt (b : AddressType) : RT read b.write b := by
  cases b <;> exact RT.enum (by decide) (by decide) (by decide)
theorem AddressType.post : Post read fun _ n => True ∧ n = 2 := Post.enum.mono fun _ _ h => ⟨trivial, h.1⟩
macro_rules | `(tactic| rt_leaf) => `(tactic| with_reducible exact AddressType.rt _)
macro_rules | `(tactic| post_leaf) => `(tactic| with_reducible exact AddressType.post)

/-- Bits of an address on the wire. -/
def Address.bitsOf : AddressType → Nat
  | .nbId => 8 | .noId => 0 | .uId => 64 | .vId => 16

theorem Address.rt {a : Address} (h : a.WF) : RT (read a.type) a.write a := by
  cases a with
  | nbId n => exact RT.map (VarInt.rt h) rfl
  | noId => exact RT.pure' _
  | uId a => exact RT.map (RT.uintFull a) rfl
  | vId a => exact RT.map (RT.uintFull a) rfl
theorem Address.post (t : AddressType) : Post (read t) fun a n => (a.type = t ∧ a.WF) ∧
    n = bitsOf t := by
  cases t
  case nbId => exact Post.bind VarInt.post fun _ _ h => Post.pure ⟨⟨rfl, h.1⟩, h.2⟩
  case noId => exact Post.pure ⟨⟨rfl, trivial⟩, rfl⟩
  case uId => exact Post.bind Post.uint fun _ _ h => Post.pure ⟨⟨rfl, trivial⟩, h.1⟩
  case vId => exact Post.bind Post.uint fun _ _ h => Post.pure ⟨⟨rfl, trivial⟩, h.1⟩

/-- Bits of an addressee on the wire. -/
def Addressee.bits (a : Addressee) : Nat :=
  16 + Address.bitsOf a.addressType + (if a.nlsMethod = .none then 0 else 40)

theorem Addressee.rt {cfg : Cfg} {a : Addressee} (h : a.WF cfg) :
    RT (read cfg) (a.write cfg) a := by
  obtain ⟨h1, h2, h3, h4, h5⟩ := h
  have hr : RT (match cfg.variant with
      | .wizzilab => readCtlWizzilab cfg
      | _ => readCtl cfg) (a.writeCtl cfg)
      (a.groupCondition, a.addressType, a.useVid, a.nlsMethod) := by
    unfold writeCtl
    cases hv : cfg.variant
    case wizzilab =>
      unfold readCtlWizzilab; rt
    all_goals
      obtain ⟨hg, hu⟩ := h5 (by simp [hv])
      unfold readCtl
      rw [hg, hu]; rt
  unfold read write
  refine RT.cons hr ?_
  refine RT.cons (by rt_leaf) ?_
  refine RT.cons (h1 ▸ Address.rt h4) ?_
  refine RT.cons (h2 ▸ NlsState.rt _) ?_
  exact RT.pure _

theorem Addressee.post (cfg : Cfg) : Post (read cfg) fun a n => a.WF cfg ∧ n = a.bits := by
  have hc : Post (match cfg.variant with
      | .wizzilab => readCtlWizzilab cfg
      | _ => readCtl cfg) fun x n => (cfg.variant ≠ .wizzilab → x.1 = .any ∧ x.2.2.1 = false) ∧
        n = 8 := by
    cases hv : cfg.variant
    case wizzilab =>
      unfold readCtlWizzilab
      refine Post.bind (by post_leaf) fun _ _ _ => ?_
      refine Post.bind (by post_leaf) fun _ _ _ => ?_
      refine Post.bind (by post_leaf) fun _ _ _ => ?_
      refine Post.bind (by post_leaf) fun _ _ h => ?_
      simp only [NlsMethod.width, hv] at h
      exact Post.pure ⟨by simp, by omega⟩
    all_goals
      unfold readCtl
      refine Post.bind (by post_leaf) fun _ _ _ => ?_
      refine Post.bind (by post_leaf) fun _ _ _ => ?_
      refine Post.bind (by post_leaf) fun _ _ h => ?_
      simp only [NlsMethod.width, hv] at h
      exact Post.pure ⟨by simp, by omega⟩
  unfold read
  refine Post.bind hc fun ⟨g, t, v, m⟩ _ ⟨h1, _⟩ => ?_
  refine Post.bind AccessClass.post fun _ _ ⟨h2, _⟩ => ?_
  refine Post.bind (Address.post t) fun _ _ ⟨h3, _⟩ => ?_
  refine Post.bind (NlsState.post m) fun _ _ ⟨h4, _⟩ => ?_
  refine Post.pure ⟨⟨h3.1.symm, h4.symm, h2, h3.2, h1⟩, ?_⟩
  simp only [bits]
  omega
macro_rules | `(tactic| rt_leaf) => `(tactic| with_reducible exact Addressee.rt (by assumption))
macro_rules | `(tactic| post_leaf) => `(tactic| with_reducible exact Addressee.post _)

theorem Addressee.bits_dvd (a : Addressee) : 8 ∣ a.bits ∧ 16 ≤ a.bits ∧ a.bits ≤ 120 := by
  unfold bits Address.bitsOf
  by_cases h : a.nlsMethod = .none <;> cases a.addressType <;> simp only [h] <;> decide

end Dash7
