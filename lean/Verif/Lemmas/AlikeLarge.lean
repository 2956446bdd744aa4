import Verif.Lemmas.AlikeFrame
import Verif.Props.FlipLarge

/-!
# For C94: actions carrying a file of 64 bytes or more
-/

namespace Dash7

/-- All forms have the same length. -/
def Long (F : Form) (n : Nat) : Prop := ∀ c, F c → c.length = n

namespace Long

theorem nil : Long (Form.all []) 0 := by rintro c rfl; rfl

theorem cons {F : Form} {Fs : List Form} {m n : Nat} (h : Long F m) (hs : Long (Form.all Fs) n) :
    Long (Form.all (F :: Fs)) (m + n) := by
  rintro c ⟨a, b, rfl, ha, hb⟩
  rw [List.length_append, h a ha, hs b hb]

theorem cast {F : Form} {m n : Nat} (h : Long F m) (e : m = n) : Long F n := e ▸ h

theorem reserved (n : Nat) : Long (Form.reserved n) n := fun _ h => h

theorem of {F : Form} {n : Nat} (h : Rigid F n) : Long F n := h.len

theorem all_map {α : Type} (f : α → Form) (n : Nat) (h : ∀ a, Long (f a) n) (l : List α) :
    Long (Form.all (l.map f)) (n * l.length) := by
  induction l with
  | nil => exact nil
  | cons a l ih => exact (cons (h a) ih).cast (by rw [List.length_cons, Nat.mul_add]; omega)

theorem channelHeader (h : ChannelHeader) : Long (Form.channelHeader h) 8 :=
  (cons (reserved 1) (cons (of (Rigid.field 3 _)) (cons (of (Rigid.field 2 _)) (cons (of (Rigid.field 2 _)) nil)))).cast rfl

theorem varInt (v : VarInt) : Long (Form.varInt v) 8 := by
  rintro c ⟨e, m, -, -, a, b, rfl, ⟨ha, -⟩, b', b'', rfl, ⟨hb, -⟩, rfl⟩
  rw [List.length_append, List.length_append, ha, hb]; rfl

theorem accessProfile (a : AccessProfile) : Long (Form.accessProfile a) (8 * 65) := by
  have hs : ∀ s, Long (Form.subProfile s) 16 := fun s =>
    (cons (of (Rigid.field 8 _)) (cons (varInt _) nil)).cast rfl
  exact (cons (channelHeader _) (cons (all_map _ 16 hs _) (cons (all_map _ 56 (fun b => of (Rigid.subBand b)) _) nil))).cast
    (by simp)

/-- What a large file holds has one length only. -/
theorem large {big : Bool} {b n : Nat} {f : File} (h : (∃ i p, f = .accessProfile i p) ∨ ∃ p, f = .phyStatus p) :
    Long (Form.file big b n f) (Alike.content f).length := by
  rcases h with ⟨i, p, rfl⟩ | ⟨p, rfl⟩
  · refine (cons (of (Rigid.given _)) (cons (accessProfile p) nil)).cast ?_
    have e : ∀ l : List SubProfile, (l.flatMap Alike.subProfile).length = 16 * l.length := by
      intro l
      induction l with
      | nil => rfl
      | cons a l ih =>
        rw [List.flatMap_cons, List.length_append, ih, List.length_cons]
        have : (Alike.subProfile a).length = 16 := rfl
        omega
    simp only [Alike.content, Alike.accessProfile, List.length_append, e, Alike.heed, List.length_replicate,
      Vector.length_toList]
    rfl
  · have hr : Rigid (Form.phyStatus p) (8 * 15 + 24 * p.channelStatus.length) := Rigid.phyStatus p
    exact (cons (of (Rigid.given _)) (cons (of hr) nil)).cast (by simp [Alike.content, Alike.heed])

end Long

end Dash7
