import Verif.Model.Display

/-!
# Reading a displayed text back

Every shown value ends where a character that belongs to no word follows, so texts can be taken apart
from the left.
-/

namespace Dash7

/-- The characters of a word or number. -/
def isWord (c : Char) : Bool := c.isAlphanum || c == '_'

/-- The text does not continue a word. -/
def Stop (x : List Char) : Prop := ∀ c, x.head? = some c → isWord c = false

theorem Stop.lit (s : String) (x : List Char)
    (h : (match s.toList with | [] => false | c :: _ => !isWord c) = true := by decide +kernel) :
    Stop (s.toList ++ x) := by
  intro c hc
  cases hs : s.toList with
  | nil => rw [hs] at h; simp at h
  | cons d ds =>
    rw [hs] at h hc
    simp only [List.cons_append, List.head?_cons, Option.some.injEq] at hc
    subst hc
    simpa using h

theorem split_word {w w' x y : List Char} (hw : ∀ c ∈ w, isWord c = true) (hw' : ∀ c ∈ w', isWord c = true)
    (hx : Stop x) (hy : Stop y) (h : w ++ x = w' ++ y) : w = w' ∧ x = y := by
  induction w generalizing w' with
  | nil =>
    cases w' with
    | nil => exact ⟨rfl, h⟩
    | cons d ds =>
      rw [List.nil_append] at h
      have := hx d (by rw [h]; rfl)
      rw [hw' d (by simp)] at this
      cases this
  | cons c cs ih =>
    cases w' with
    | nil =>
      rw [List.nil_append] at h
      have := hy c (by rw [← h]; rfl)
      rw [hw c (by simp)] at this
      cases this
    | cons d ds =>
      simp only [List.cons_append, List.cons.injEq] at h
      obtain ⟨rfl, h⟩ := h
      obtain ⟨rfl, rfl⟩ := ih (fun e he => hw e (by simp [he])) (fun e he => hw' e (by simp [he])) h
      exact ⟨rfl, rfl⟩

/-- A value can be read back off the front of a text. -/
def Tok {α : Type} (f : α → String) : Prop :=
  ∀ a b x y, Stop x → Stop y → (f a).toList ++ x = (f b).toList ++ y → a = b ∧ x = y

theorem Tok.word {α : Type} {f : α → String} (hw : ∀ a, ∀ c ∈ (f a).toList, isWord c = true)
    (hi : ∀ a b, (f a).toList = (f b).toList → a = b) : Tok f := by
  intro a b x y hx hy h
  obtain ⟨h1, h2⟩ := split_word (hw a) (hw b) hx hy h
  exact ⟨hi _ _ h1, h2⟩

namespace Debug

theorem nat_toList (n : Nat) : (nat n).toList = Nat.toDigits 10 n := by
  show (String.ofList (Nat.toDigits 10 n)).toList = _
  simp

theorem nat_word (n : Nat) : ∀ c ∈ (nat n).toList, isWord c = true := by
  intro c hc
  rw [nat_toList] at hc
  have := Nat.isDigit_of_mem_toDigits (by decide) (by decide) hc
  simp [isWord, Char.isAlphanum, this]

theorem nat_tok : Tok nat := by
  refine Tok.word nat_word fun a b h => ?_
  rw [nat_toList, nat_toList] at h
  have := congrArg (fun l => Nat.ofDigitChars 10 l 0) h
  simpa only [Nat.ofDigitChars_toDigits (b := 10) (by decide) (by decide)] using this

theorem bv_tok {n : Nat} : Tok fun b : BitVec n => nat b.toNat := by
  intro a b x y hx hy h
  obtain ⟨h1, h2⟩ := nat_tok _ _ _ _ hx hy h
  exact ⟨BitVec.eq_of_toNat_eq h1, h2⟩

theorem bool_tok : Tok bool := Tok.word (by decide) (by decide)
theorem band_tok : Tok band := Tok.word (by intro a; cases a <;> decide) (by intro a b; cases a <;> cases b <;> decide)
theorem cls_tok : Tok cls := Tok.word (by intro a; cases a <;> decide) (by intro a b; cases a <;> cases b <;> decide)
theorem coding_tok : Tok coding :=
  Tok.word (by intro a; cases a <;> decide) (by intro a b; cases a <;> cases b <;> decide)
theorem groupCondition_tok : Tok groupCondition :=
  Tok.word (by intro a; cases a <;> decide) (by intro a b; cases a <;> cases b <;> decide)
theorem addressType_tok : Tok addressType :=
  Tok.word (by intro a; cases a <;> decide) (by intro a b; cases a <;> cases b <;> decide)
theorem nlsMethod_tok : Tok nlsMethod :=
  Tok.word (by intro a; cases a <;> decide) (by intro a b; cases a <;> cases b <;> decide)

theorem more_tok : ∀ (bs bs' : List U8) (x y : List Char),
    (more bs).toList ++ ("]".toList ++ x) = (more bs').toList ++ ("]".toList ++ y) → bs = bs' ∧ x = y := by
  intro bs
  induction bs with
  | nil =>
    intro bs' x y h
    cases bs' with
    | nil => simpa [more] using h
    | cons b bs' => simp [more] at h
  | cons a bs ih =>
    intro bs' x y h
    cases bs' with
    | nil => simp [more] at h
    | cons b bs' =>
      simp only [more, String.toList_append, List.append_assoc, List.append_cancel_left_eq] at h
      have stop : ∀ (cs : List U8) (x : List Char), Stop ((more cs).toList ++ ("]".toList ++ x)) := by
        intro cs x
        cases cs with
        | nil => exact Stop.lit "]" x
        | cons c cs =>
          simp only [more, String.toList_append, List.append_assoc]
          exact Stop.lit ", " _
      obtain ⟨rfl, h2⟩ := bv_tok _ _ _ _ (stop _ _) (stop _ _) h
      obtain ⟨rfl, rfl⟩ := ih _ _ _ h2
      exact ⟨rfl, rfl⟩

theorem bytes_tok : Tok bytes := by
  intro a b x y _ _ h
  cases a with
  | nil =>
    cases b with
    | nil => exact ⟨rfl, by simpa [bytes] using h⟩
    | cons b bs =>
      exfalso
      have hd := nat_word b.toNat
      simp only [bytes, String.toList_append, List.append_assoc] at h
      have h : "]".toList ++ x = (nat b.toNat).toList ++ ((more bs).toList ++ ("]".toList ++ y)) :=
        List.append_cancel_left (as := "[".toList) h
      cases hn : (nat b.toNat).toList with
      | nil => rw [nat_toList] at hn; simp at hn
      | cons c cs =>
        rw [hn] at h
        have : ']' = c := (List.cons.inj h).1
        have h1 := hd c (by rw [hn]; simp)
        rw [← this] at h1
        exact absurd h1 (by decide)
  | cons a as =>
    cases b with
    | nil =>
      exfalso
      have hd := nat_word a.toNat
      simp only [bytes, String.toList_append, List.append_assoc] at h
      have h : (nat a.toNat).toList ++ ((more as).toList ++ ("]".toList ++ x)) = "]".toList ++ y :=
        List.append_cancel_left (as := "[".toList) h
      cases hn : (nat a.toNat).toList with
      | nil => rw [nat_toList] at hn; simp at hn
      | cons c cs =>
        rw [hn] at h
        have : c = ']' := (List.cons.inj h).1
        have h1 := hd c (by rw [hn]; simp)
        rw [this] at h1
        exact absurd h1 (by decide)
    | cons b bs =>
      have e : ∀ (c : U8) (cs : List U8), [c] ++ cs = c :: cs := fun _ _ => rfl
      have h2 : (more (a :: as)).toList ++ ("]".toList ++ x) = (more (b :: bs)).toList ++ ("]".toList ++ y) := by
        simp only [bytes, String.toList_append, List.append_assoc, List.append_cancel_left_eq] at h
        simp only [more, String.toList_append, List.append_assoc, List.append_cancel_left_eq]
        exact h
      exact more_tok _ _ _ _ h2

theorem _root_.Dash7.Tok.peel {α : Type} {f : α → String} (t : Tok f) {a b : α} {s s' : String} {x y : List Char}
    (h : (f a).toList ++ (s.toList ++ x) = (f b).toList ++ (s'.toList ++ y))
    (hs : (match s.toList with | [] => false | c :: _ => !isWord c) = true := by decide +kernel)
    (hs' : (match s'.toList with | [] => false | c :: _ => !isWord c) = true := by decide +kernel) :
    a = b ∧ s.toList ++ x = s'.toList ++ y :=
  t a b _ _ (Stop.lit s x hs) (Stop.lit s' y hs') h

theorem _root_.Dash7.Tok.peel3 {α : Type} {f : α → String} (t : Tok f) {a b : α} {l1 l2 l3 : List Char}
    {s s' : String} {x y : List Char}
    (h : l1 ++ (l2 ++ (l3 ++ ((f a).toList ++ (s.toList ++ x)))) =
      l1 ++ (l2 ++ (l3 ++ ((f b).toList ++ (s'.toList ++ y)))))
    (hs : (match s.toList with | [] => false | c :: _ => !isWord c) = true := by decide +kernel)
    (hs' : (match s'.toList with | [] => false | c :: _ => !isWord c) = true := by decide +kernel) :
    a = b ∧ s.toList ++ x = s'.toList ++ y :=
  t.peel (List.append_cancel_left (List.append_cancel_left (List.append_cancel_left h))) hs hs'

/-- Takes three literal texts and then a value off both sides of an equation of texts. -/
macro "peel" h:ident t:term : tactic => `(tactic|
  (have hp := Tok.peel3 $t $h
   clear $h
   obtain ⟨he, $h:ident⟩ := hp
   subst he))

/-- Takes two literal texts and then a value off both sides of an equation of texts. -/
macro "peel2" h:ident t:term : tactic => `(tactic|
  (have hp := Tok.peel $t (List.append_cancel_left (List.append_cancel_left $h))
   clear $h
   obtain ⟨he, $h:ident⟩ := hp
   subst he))

/-- Takes one literal text and then a value off both sides of an equation of texts. -/
macro "peel1" h:ident t:term : tactic => `(tactic|
  (have hp := Tok.peel $t (List.append_cancel_left $h)
   clear $h
   obtain ⟨he, $h:ident⟩ := hp
   subst he))

/-- Opens a struct on both sides of an equation of texts. -/
macro "fields" h:ident d:ident : tactic => `(tactic|
  (simp only [$d:ident, struct, moreFields, String.append_assoc, String.toList_append, List.append_assoc,
    String.empty_append] at $h:ident; replace $h:ident := List.append_cancel_left $h))

theorem channelHeader_tok : Tok channelHeader := by
  rintro ⟨a1, a2, a3⟩ ⟨b1, b2, b3⟩ x y _ _ h
  fields h channelHeader
  peel h band_tok
  peel h cls_tok
  peel h coding_tok
  exact ⟨rfl, List.append_cancel_left h⟩

theorem channel_tok : Tok channel := by
  rintro ⟨a1, a2⟩ ⟨b1, b2⟩ x y _ _ h
  fields h channel
  peel h channelHeader_tok
  peel h bv_tok
  exact ⟨rfl, List.append_cancel_left h⟩

theorem varInt_tok : Tok varInt := by
  rintro ⟨a1, a2⟩ ⟨b1, b2⟩ x y _ _ h
  fields h varInt
  peel h bv_tok
  peel h bool_tok
  exact ⟨rfl, List.append_cancel_left h⟩

theorem accessClass_tok : Tok accessClass := by
  rintro ⟨a1, a2⟩ ⟨b1, b2⟩ x y _ _ h
  fields h accessClass
  peel h bv_tok
  peel h bv_tok
  exact ⟨rfl, List.append_cancel_left h⟩

theorem Stop.empty {x : List Char} (h : Stop x) : Stop ("".toList ++ x) := by simpa using h

theorem address_tok : Tok address := by
  have hname : ∀ a, ∃ p : String, address a = addressType a.type ++ p ∧
      (∀ x, Stop x → Stop (p.toList ++ x)) ∧
      p = match a with
        | .nbId n => "(" ++ varInt n ++ ")"
        | .noId => ""
        | .uId a => "(" ++ nat a.toNat ++ ")"
        | .vId a => "(" ++ nat a.toNat ++ ")" := by
    intro a
    refine ⟨_, ?_, fun x hx => ?_, rfl⟩
    · cases a <;> rfl
    · cases a
      case noId => exact Stop.empty hx
      all_goals
        simp only [String.toList_append, List.append_assoc]
        exact Stop.lit _ _
  intro a b x y hx hy h
  obtain ⟨p, e1, s1, hp⟩ := hname a
  obtain ⟨q, e2, s2, hq⟩ := hname b
  rw [e1, e2] at h
  simp only [String.toList_append, List.append_assoc] at h
  have hh := addressType_tok _ _ _ _ (s1 x hx) (s2 y hy) h
  clear h
  obtain ⟨ht, h⟩ := hh
  clear e1 e2 s1 s2 hname
  subst hp hq
  cases a with
  | nbId n =>
    cases b <;> simp only [Address.type, reduceCtorEq] at ht
    simp only [String.toList_append, List.append_assoc] at h
    peel1 h varInt_tok
    exact ⟨rfl, List.append_cancel_left h⟩
  | noId =>
    cases b <;> simp only [Address.type, reduceCtorEq] at ht
    exact ⟨rfl, by simpa using h⟩
  | uId n =>
    cases b <;> simp only [Address.type, reduceCtorEq] at ht
    simp only [String.toList_append, List.append_assoc] at h
    peel1 h (bv_tok (n := 64))
    exact ⟨rfl, List.append_cancel_left h⟩
  | vId n =>
    cases b <;> simp only [Address.type, reduceCtorEq] at ht
    simp only [String.toList_append, List.append_assoc] at h
    peel1 h (bv_tok (n := 16))
    exact ⟨rfl, List.append_cancel_left h⟩

theorem vec_tok : Tok fun b : Vector U8 5 => bytes b.toList := by
  intro a b x y hx hy h
  obtain ⟨h1, h2⟩ := bytes_tok _ _ _ _ hx hy h
  exact ⟨Vector.toList_inj.1 h1, h2⟩

/-- The counter a state carries. -/
def counter? : NlsState → Option (Vector U8 5)
  | .none => Option.none
  | .aesCtr b | .aesCbcMac128 b | .aesCbcMac64 b | .aesCbcMac32 b | .aesCcm128 b | .aesCcm64 b
  | .aesCcm32 b => some b

theorem nlsState_split (s : NlsState) : nlsState s = nlsMethod s.method ++
    match counter? s with
    | Option.none => ""
    | some b => "(" ++ bytes b.toList ++ ")" := by
  cases s <;> rfl

theorem nlsState_ext (s t : NlsState) (h : s.method = t.method) (hc : counter? s = counter? t) : s = t := by
  cases s <;> cases t <;> simp_all [NlsState.method, counter?]

theorem nlsState_counter (s t : NlsState) (h : s.method = t.method) :
    (counter? s).isSome = (counter? t).isSome := by
  cases s <;> cases t <;> simp_all [NlsState.method, counter?]

theorem nlsState_tok : Tok nlsState := by
  have stop : ∀ (o : Option (Vector U8 5)) x, Stop x → Stop ((match o with
      | Option.none => ""
      | some b => "(" ++ bytes b.toList ++ ")" : String).toList ++ x) := by
    intro o x hx
    cases o with
    | none => exact Stop.empty hx
    | some b =>
      simp only [String.toList_append, List.append_assoc]
      exact Stop.lit _ _
  intro a b x y hx hy h
  rw [nlsState_split, nlsState_split, String.toList_append, String.toList_append, List.append_assoc,
    List.append_assoc] at h
  have hh := nlsMethod_tok _ _ _ _ (stop _ x hx) (stop _ y hy) h
  clear h
  obtain ⟨ht, h⟩ := hh
  have hc := nlsState_counter a b ht
  suffices counter? a = counter? b ∧ x = y from ⟨nlsState_ext a b ht this.1, this.2⟩
  generalize counter? a = ca at h hc ⊢
  generalize counter? b = cb at h hc ⊢
  cases ca with
  | none =>
    cases cb with
    | none => exact ⟨rfl, by simpa using h⟩
    | some b => simp at hc
  | some a =>
    cases cb with
    | none => simp at hc
    | some b =>
      simp only [String.toList_append, List.append_assoc] at h
      peel1 h vec_tok
      exact ⟨rfl, List.append_cancel_left h⟩

/-- The fields of an addressee that exist in the build are the same. -/
def SameAddressee (cfg : Cfg) (a b : Addressee) : Prop :=
  (cfg.variant = .wizzilab → a.groupCondition = b.groupCondition ∧ a.useVid = b.useVid) ∧
  a.addressType = b.addressType ∧ a.nlsMethod = b.nlsMethod ∧ a.accessClass = b.accessClass ∧
  a.address = b.address ∧ a.nlsState = b.nlsState



theorem addressee_tok (cfg : Cfg) (a b : Addressee) (x y : List Char)
    (h : (addressee cfg a).toList ++ x = (addressee cfg b).toList ++ y) : SameAddressee cfg a b ∧ x = y := by
  obtain ⟨a1, a2, a3, a4, a5, a6, a7⟩ := a
  obtain ⟨b1, b2, b3, b4, b5, b6, b7⟩ := b
  unfold addressee at h
  cases hv : cfg.variant with
  | wizzilab =>
    simp only [hv] at h
    simp only [struct, moreFields, String.append_assoc, String.toList_append, List.append_assoc,
      String.empty_append] at h
    replace h := List.append_cancel_left h
    peel h groupCondition_tok
    peel h addressType_tok
    peel h bool_tok
    peel h nlsMethod_tok
    peel h accessClass_tok
    peel h address_tok
    peel h nlsState_tok
    exact ⟨⟨fun _ => ⟨rfl, rfl⟩, rfl, rfl, rfl, rfl, rfl⟩, List.append_cancel_left h⟩
  | _ =>
    simp only [hv] at h
    simp only [struct, moreFields, String.append_assoc, String.toList_append, List.append_assoc,
      String.empty_append] at h
    replace h := List.append_cancel_left h
    peel h addressType_tok
    peel h nlsMethod_tok
    peel h accessClass_tok
    peel h address_tok
    peel h nlsState_tok
    exact ⟨⟨fun h => (by simp [hv] at h), rfl, rfl, rfl, rfl, rfl⟩, List.append_cancel_left h⟩

end Debug
end Dash7
