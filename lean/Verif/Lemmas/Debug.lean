import Verif.Model.Debug
import Verif.Lemmas.Display

/-!
# Reading a derived `Debug` text back

The text of a value can be taken off the front of a longer text, if what follows does not continue a
word and opens neither a parenthesis nor a brace.
-/

namespace Dash7
namespace Dbg

/-! ## Escapes -/

/-- The value of hexadecimal digits. -/
def hexOf (l : List Char) : Nat := l.foldl (fun n c => 16 * n + (Cli.hexVal c).getD 0) 0

theorem hexOf_append (l : List Char) (c : Char) : hexOf (l ++ [c]) = 16 * hexOf l + (Cli.hexVal c).getD 0 := by
  simp [hexOf]

theorem hexVal_digitChar : ∀ n : Fin 16, (Cli.hexVal (Nat.digitChar n.val)).getD 0 = n.val := by decide

theorem hexOf_toDigits (n : Nat) : hexOf (Nat.toDigits 16 n) = n := by
  induction n using Nat.strongRecOn with
  | ind n ih =>
    rw [Nat.toDigits_eq_if (by decide)]
    split
    · rename_i h
      show 16 * 0 + (Cli.hexVal n.digitChar).getD 0 = n
      rw [hexVal_digitChar ⟨n, h⟩]
      exact Nat.zero_add n
    · rename_i h
      rw [hexOf_append, ih _ (by omega), hexVal_digitChar ⟨n % 16, Nat.mod_lt _ (by decide)⟩]
      show 16 * (n / 16) + n % 16 = n
      omega

theorem hexDigit_ne : ∀ n : Fin 16, Nat.digitChar n.val ≠ '}' ∧ Nat.digitChar n.val ≠ '\n' := by decide

theorem mem_toDigits {n : Nat} {c : Char} (h : c ∈ Nat.toDigits 16 n) : c ≠ '}' ∧ c ≠ '\n' := by
  induction n using Nat.strongRecOn with
  | ind n ih =>
    rw [Nat.toDigits_eq_if (by decide)] at h
    split at h
    · rename_i hl
      rw [List.mem_singleton.1 h]
      exact hexDigit_ne ⟨n, hl⟩
    · rename_i hl
      rcases List.mem_append.1 h with h | h
      · exact ih _ (by omega) h
      · rw [List.mem_singleton.1 h]
        exact hexDigit_ne ⟨n % 16, Nat.mod_lt _ (by decide)⟩

/-- Undoing one escape. -/
def unescape : List Char → Option (Char × List Char)
  | [] => none
  | '\\' :: '0' :: r => some ('\x00', r)
  | '\\' :: 't' :: r => some ('\t', r)
  | '\\' :: 'r' :: r => some ('\r', r)
  | '\\' :: 'n' :: r => some ('\n', r)
  | '\\' :: '\\' :: r => some ('\\', r)
  | '\\' :: '"' :: r => some ('"', r)
  | '\\' :: 'u' :: '{' :: r =>
    some (Char.ofNat (hexOf (r.takeWhile (· != '}'))), (r.dropWhile (· != '}')).drop 1)
  | '\\' :: _ => none
  | c :: r => some (c, r)

theorem unescape_escape (plain : Char → Bool) (c : Char) (x : List Char) :
    unescape (escape plain c ++ x) = some (c, x) := by
  unfold escape
  (repeat' split)
  · subst_vars; rfl
  · subst_vars; rfl
  · subst_vars; rfl
  · subst_vars; rfl
  · subst_vars; rfl
  · subst_vars; rfl
  · rename_i h _ _
    show unescape (c :: x) = _
    unfold unescape
    split <;> simp_all
  · have h1 : (Nat.toDigits 16 c.toNat ++ ['}'] ++ x).takeWhile (· != '}') = Nat.toDigits 16 c.toNat := by
      rw [List.append_assoc, List.takeWhile_append_of_pos (fun a ha => by simpa using (mem_toDigits ha).1)]
      simp
    have h2 : (Nat.toDigits 16 c.toNat ++ ['}'] ++ x).dropWhile (· != '}') = '}' :: x := by
      rw [List.append_assoc, List.dropWhile_append_of_pos (fun a ha => by simpa using (mem_toDigits ha).1)]
      simp
    show some (Char.ofNat (hexOf ((Nat.toDigits 16 c.toNat ++ ['}'] ++ x).takeWhile (· != '}'))),
      ((Nat.toDigits 16 c.toNat ++ ['}'] ++ x).dropWhile (· != '}')).drop 1) = _
    rw [h1, h2, hexOf_toDigits, Char.ofNat_toNat]
    rfl

theorem escape_head (plain : Char → Bool) (c : Char) (x y : List Char) : escape plain c ++ x ≠ '"' :: y := by
  intro h
  have := unescape_escape plain c x
  rw [h] at this
  have h2 : unescape ('"' :: y) = some ('"', y) := rfl
  rw [h2] at this
  obtain ⟨rfl, rfl⟩ := Prod.mk.inj (Option.some.inj this)
  have := congrArg List.length h
  simp [escape] at this

theorem escapes_inj {plain : Char → Bool} {cs cs' x y : List Char}
    (h : escapes plain cs ++ '"' :: x = escapes plain cs' ++ '"' :: y) : cs = cs' ∧ x = y := by
  induction cs generalizing cs' with
  | nil =>
    cases cs' with
    | nil => exact ⟨rfl, by simpa [escapes] using h⟩
    | cons c cs' =>
      rw [escapes, escapes, List.append_assoc] at h
      exact absurd h.symm (escape_head _ _ _ _)
  | cons c cs ih =>
    cases cs' with
    | nil =>
      rw [escapes, escapes, List.append_assoc] at h
      exact absurd h (escape_head _ _ _ _)
    | cons c' cs' =>
      rw [escapes, escapes, List.append_assoc, List.append_assoc] at h
      have h1 := unescape_escape plain c (escapes plain cs ++ '"' :: x)
      rw [h, unescape_escape] at h1
      obtain ⟨rfl, h2⟩ := Prod.mk.inj (Option.some.inj h1)
      obtain ⟨rfl, rfl⟩ := ih h2.symm
      exact ⟨rfl, rfl⟩

theorem escape_line (plain : Char → Bool) (c : Char) : '\n' ∉ escape plain c := by
  unfold escape
  (repeat' split)
  all_goals first | decide | skip
  · rename_i h _ _ _
    simp only [List.mem_singleton]
    exact fun e => h e.symm
  · intro h
    simp only [List.mem_append, List.mem_cons, List.not_mem_nil, or_false] at h
    rcases h with ((h | h | h) | h) | h
    · exact absurd h (by decide)
    · exact absurd h (by decide)
    · exact absurd h (by decide)
    · exact (mem_toDigits h).2 rfl
    · exact absurd h (by decide)

theorem escapes_line (plain : Char → Bool) (cs : List Char) : '\n' ∉ escapes plain cs := by
  induction cs with
  | nil => simp [escapes]
  | cons c cs ih => simp [escapes, escape_line, ih]

/-! ## Proper names -/

/-- A name: letters, digits and underscores, not beginning with a digit. -/
def isName (s : String) : Bool :=
  (match s.toList with | [] => false | c :: _ => !c.isDigit) && s.toList.all isWord

mutual

/-- All names are names, and no struct is empty. -/
def ok : Dbg → Bool
  | .word s => isName s
  | .num _ => true
  | .str _ => true
  | .list ds => oks ds
  | .tuple n d => isName n && ok d
  | .struct n fs => isName n && !fs.isEmpty && okFields fs
  | .pair a b => ok a && ok b

/-- See `ok`. -/
def oks : List Dbg → Bool
  | [] => true
  | d :: ds => ok d && oks ds

/-- See `ok`. -/
def okFields : List (String × Dbg) → Bool
  | [] => true
  | (f, d) :: fs => isName f && ok d && okFields fs

end

theorem oks_map {α : Type} {f : α → Dbg} (l : List α) (h : ∀ a ∈ l, ok (f a) = true) : oks (l.map f) = true := by
  induction l with
  | nil => rfl
  | cons a l ih =>
    rw [List.map_cons, oks, h a (by simp), ih fun a ha => h a (by simp [ha])]
    rfl

/-- What follows a value does not belong to it. -/
def follow : List Char → Bool
  | [] => true
  | '(' :: _ => false
  | ' ' :: '{' :: _ => false
  | c :: _ => !isWord c

theorem follow.stop {x : List Char} (h : follow x = true) : Stop x := by
  intro c hc
  cases x with
  | nil => simp at hc
  | cons d r =>
    obtain rfl : d = c := by simpa using hc
    unfold follow at h
    split at h <;> simp_all

/-- The kind of value a text begins with. -/
def kind (c : Char) : Nat :=
  if c = '"' then 1 else if c = '[' then 2 else if c = '(' then 3
  else if c = '-' ∨ c.isDigit then 4 else 5

/-- See `kind`. -/
def kindOf : Dbg → Nat
  | .str _ => 1
  | .list _ => 2
  | .pair _ _ => 3
  | .num _ => 4
  | _ => 5

theorem isName.head {s : String} (h : isName s = true) :
    ∃ c r, s.toList = c :: r ∧ kind c = 5 ∧ isWord c = true := by
  unfold isName at h
  cases hs : s.toList with
  | nil => rw [hs] at h; cases h
  | cons c r =>
    rw [hs] at h
    simp only [Bool.and_eq_true, List.all_cons, Bool.not_eq_true'] at h
    refine ⟨c, r, rfl, ?_, h.2.1⟩
    have hw := h.2.1
    have e : ∀ d, isWord d = false → c ≠ d := by rintro d hd rfl; rw [hw] at hd; cases hd
    simp [kind, e '"' (by decide), e '[' (by decide), e '(' (by decide), e '-' (by decide), h.1]

theorem isName.word {s : String} (h : isName s = true) : ∀ c ∈ s.toList, isWord c = true := by
  unfold isName at h
  simp only [Bool.and_eq_true, List.all_eq_true] at h
  exact h.2

theorem digits_head (n : Nat) : ∃ c r, Nat.toDigits 10 n = c :: r ∧ c.isDigit = true := by
  cases h : Nat.toDigits 10 n with
  | nil => exact absurd h Nat.toDigits_ne_nil
  | cons c r => exact ⟨c, r, rfl, Nat.isDigit_of_mem_toDigits (b := 10) (n := n) (by decide) (by decide) (by rw [h]; simp)⟩

theorem head (plain : Char → Bool) (d : Dbg) (h : ok d = true) :
    ∃ c r, chars plain d = c :: r ∧ kind c = kindOf d := by
  cases d with
  | word s =>
    obtain ⟨c, r, h1, h2, _⟩ := isName.head (by simpa [ok] using h)
    exact ⟨c, r, by rw [chars, h1], h2⟩
  | num i =>
    rw [chars]
    split
    · exact ⟨_, _, rfl, rfl⟩
    · obtain ⟨c, r, h1, h2⟩ := digits_head i.natAbs
      refine ⟨c, r, by rw [h1]; rfl, ?_⟩
      have e : ∀ d : Char, d.isDigit = false → c ≠ d := by rintro d hd rfl; rw [h2] at hd; cases hd
      simp [kind, e '"' (by decide), e '[' (by decide), e '(' (by decide), h2, kindOf]
  | str s => exact ⟨_, _, by rw [chars], rfl⟩
  | list ds => cases ds <;> exact ⟨_, _, by rw [chars], rfl⟩
  | tuple n d =>
    rw [ok, Bool.and_eq_true] at h
    obtain ⟨c, r, h1, h2, _⟩ := isName.head h.1
    exact ⟨c, _, by rw [chars, h1]; rfl, h2⟩
  | struct n fs =>
    rw [ok, Bool.and_eq_true, Bool.and_eq_true] at h
    obtain ⟨c, r, h1, h2, _⟩ := isName.head h.1.1
    cases fs with
    | nil => exact ⟨c, r, by rw [chars, h1], h2⟩
    | cons f fs => exact ⟨c, _, by rw [chars, h1]; rfl, h2⟩
  | pair a b => exact ⟨_, _, by rw [chars], rfl⟩

theorem kind_eq {plain : Char → Bool} {d d' : Dbg} (h : ok d = true) (h' : ok d' = true) {x y : List Char}
    (e : chars plain d ++ x = chars plain d' ++ y) : kindOf d = kindOf d' := by
  obtain ⟨c, r, h1, h2⟩ := head plain d h
  obtain ⟨c', r', h1', h2'⟩ := head plain d' h'
  rw [h1, h1'] at e
  obtain ⟨rfl, _⟩ := List.cons.inj e
  rw [← h2, h2']

theorem num_inj {i j : Int} {x y : List Char} (hx : Stop x) (hy : Stop y)
    (h : (if i < 0 then ['-'] else []) ++ Nat.toDigits 10 i.natAbs ++ x =
      (if j < 0 then ['-'] else []) ++ Nat.toDigits 10 j.natAbs ++ y) : i = j ∧ x = y := by
  have key : ∀ {n m : Nat}, Nat.toDigits 10 n ++ x = Nat.toDigits 10 m ++ y → n = m ∧ x = y := by
    intro n m h
    rw [← Debug.nat_toList, ← Debug.nat_toList] at h
    exact Debug.nat_tok _ _ _ _ hx hy h
  have minus : ∀ (n : Nat) (x y : List Char), '-' :: x ≠ Nat.toDigits 10 n ++ y := by
    intro n x y h
    obtain ⟨c, r, h1, h2⟩ := digits_head n
    rw [h1] at h
    rw [← (List.cons.inj h).1] at h2
    exact absurd h2 (by decide)
  by_cases hi : i < 0 <;> by_cases hj : j < 0
  · rw [if_pos hi, if_pos hj] at h
    obtain ⟨h1, h2⟩ := key (List.cons.inj h).2
    exact ⟨by omega, h2⟩
  · rw [if_pos hi, if_neg hj] at h
    exact absurd h (minus _ _ _)
  · rw [if_neg hi, if_pos hj] at h
    exact absurd h.symm (minus _ _ _)
  · rw [if_neg hi, if_neg hj] at h
    obtain ⟨h1, h2⟩ := key h
    exact ⟨by omega, h2⟩

theorem Stop.paren (x : List Char) : Stop ('(' :: x) := by
  intro c hc
  obtain rfl : '(' = c := by simpa using hc
  decide

theorem Stop.space (x : List Char) : Stop (' ' :: x) := by
  intro c hc
  obtain rfl : ' ' = c := by simpa using hc
  decide

theorem Stop.colon (x : List Char) : Stop (':' :: x) := by
  intro c hc
  obtain rfl : ':' = c := by simpa using hc
  decide

/-- The text of a value with a name, after the name. -/
def tail (plain : Char → Bool) : Dbg → List Char → List Char
  | .tuple _ d, x => '(' :: (chars plain d ++ ')' :: x)
  | .struct _ ((f, d) :: fs), x =>
    ' ' :: '{' :: ' ' :: (f.toList ++ (':' :: ' ' :: (chars plain d ++ (moreFields plain fs ++ ' ' :: '}' :: x))))
  | _, x => x

/-- The name in front. -/
def name : Dbg → String
  | .word s => s
  | .tuple n _ => n
  | .struct n _ => n
  | _ => ""

theorem chars_named {plain : Char → Bool} {d : Dbg} (h : ok d = true) (hk : kindOf d = 5) (x : List Char) :
    chars plain d ++ x = (name d).toList ++ tail plain d x ∧ isName (name d) = true ∧
    (follow x = true → Stop (tail plain d x)) := by
  cases d with
  | word s => exact ⟨by rw [chars]; rfl, (by rw [ok] at h; exact h), fun hx => follow.stop hx⟩
  | tuple n d =>
    rw [ok, Bool.and_eq_true] at h
    exact ⟨by simp [chars, name, tail], h.1, fun _ => Stop.paren _⟩
  | struct n fs =>
    rw [ok, Bool.and_eq_true, Bool.and_eq_true] at h
    cases fs with
    | nil => simp at h
    | cons f fs => exact ⟨by simp [chars, name, tail], h.1.1, fun _ => Stop.space _⟩
  | _ => cases hk

theorem follow_more (plain : Char → Bool) (ds : List Dbg) (x : List Char) :
    follow (more plain ds ++ ']' :: x) = true := by
  cases ds <;> simp [more, follow, isWord] <;> decide

theorem follow_moreFields (plain : Char → Bool) (fs : List (String × Dbg)) (x : List Char) :
    follow (moreFields plain fs ++ ' ' :: '}' :: x) = true := by
  cases fs with
  | nil => rfl
  | cons f fs => rfl

mutual

theorem chars_inj {plain : Char → Bool} : ∀ (d d' : Dbg) (x y : List Char), ok d = true → ok d' = true →
    follow x = true → follow y = true → chars plain d ++ x = chars plain d' ++ y → d = d' ∧ x = y
  | .word s, d', x, y, hd, hd', hx, hy, h => by
    have hk : 5 = kindOf d' := kind_eq (plain := plain) hd hd' h
    obtain ⟨e1, n1, t1⟩ := chars_named (plain := plain) hd rfl x
    obtain ⟨e2, n2, t2⟩ := chars_named (plain := plain) hd' hk.symm y
    rw [e1, e2] at h
    obtain ⟨hn, ht⟩ := split_word (isName.word n1) (isName.word n2) (t1 hx) (t2 hy) h
    have hn := String.toList_inj.1 hn
    cases d' with
    | word s' => exact ⟨congrArg Dbg.word hn, ht⟩
    | tuple n d => rw [show x = '(' :: _ from ht] at hx; cases hx
    | struct n fs =>
      cases fs with
      | nil => simp [ok] at hd'
      | cons f fs => rw [show x = ' ' :: '{' :: _ from ht] at hx; cases hx
    | _ => cases hk
  | .tuple n d, d', x, y, hd, hd', hx, hy, h => by
    have hk : 5 = kindOf d' := kind_eq (plain := plain) hd hd' h
    obtain ⟨e1, n1, t1⟩ := chars_named (plain := plain) hd rfl x
    obtain ⟨e2, n2, t2⟩ := chars_named (plain := plain) hd' hk.symm y
    rw [e1, e2] at h
    obtain ⟨hn, ht⟩ := split_word (isName.word n1) (isName.word n2) (t1 hx) (t2 hy) h
    have hn := String.toList_inj.1 hn
    cases d' with
    | word s' => rw [show y = '(' :: _ from ht.symm] at hy; cases hy
    | tuple n' d2 =>
      simp only [ok, Bool.and_eq_true] at hd hd'
      obtain ⟨rfl, h2⟩ := chars_inj d d2 _ _ hd.2 hd'.2 rfl rfl (List.cons.inj ht).2
      exact ⟨by rw [show n = n' from hn], (List.cons.inj h2).2⟩
    | struct n fs =>
      cases fs with
      | nil => simp [ok] at hd'
      | cons f fs => exact absurd (List.cons.inj ht).1 (by decide)
    | _ => cases hk
  | .struct n fs, d', x, y, hd, hd', hx, hy, h => by
    have hk : 5 = kindOf d' := kind_eq (plain := plain) hd hd' h
    obtain ⟨e1, n1, t1⟩ := chars_named (plain := plain) hd rfl x
    obtain ⟨e2, n2, t2⟩ := chars_named (plain := plain) hd' hk.symm y
    rw [e1, e2] at h
    obtain ⟨hn, ht⟩ := split_word (isName.word n1) (isName.word n2) (t1 hx) (t2 hy) h
    have hn := String.toList_inj.1 hn
    match fs with
    | [] => simp [ok] at hd
    | (f, d) :: fs =>
    cases d' with
    | word s' => rw [show y = ' ' :: '{' :: _ from ht.symm] at hy; cases hy
    | tuple n' d2 => exact absurd (List.cons.inj ht).1 (by decide)
    | struct n' fs' =>
      match fs' with
      | [] => simp [ok] at hd'
      | (f', d2) :: fs' =>
        simp only [ok, okFields, Bool.and_eq_true] at hd hd'
        simp only [tail, List.cons.injEq, true_and] at ht
        obtain ⟨h1, h2⟩ := split_word (isName.word hd.2.1.1) (isName.word hd'.2.1.1) (Stop.colon _) (Stop.colon _) ht
        simp only [List.cons.injEq, true_and] at h2
        obtain ⟨rfl, h3⟩ := chars_inj d d2 _ _ hd.2.1.2 hd'.2.1.2 (follow_moreFields _ _ _)
          (follow_moreFields _ _ _) h2
        obtain ⟨rfl, rfl⟩ := moreFields_inj fs fs' x y hd.2.2 hd'.2.2 h3
        exact ⟨by rw [show n = n' from hn, String.toList_inj.1 h1], rfl⟩
    | _ => cases hk
  | .num i, d', x, y, hd, hd', hx, hy, h => by
    have hk : 4 = kindOf d' := kind_eq (plain := plain) hd hd' h
    cases d' with
    | num j =>
      rw [chars, chars] at h
      obtain ⟨rfl, rfl⟩ := num_inj (follow.stop hx) (follow.stop hy) h
      exact ⟨rfl, rfl⟩
    | _ => cases hk
  | .str s, d', x, y, hd, hd', hx, hy, h => by
    have hk : 1 = kindOf d' := kind_eq (plain := plain) hd hd' h
    cases d' with
    | str s' =>
      simp only [chars, List.cons_append, List.append_assoc, List.nil_append, List.cons.injEq, true_and] at h
      obtain ⟨h1, rfl⟩ := escapes_inj h
      exact ⟨by rw [String.toList_inj.1 h1], rfl⟩
    | _ => cases hk
  | .pair a b, d', x, y, hd, hd', hx, hy, h => by
    have hk : 3 = kindOf d' := kind_eq (plain := plain) hd hd' h
    cases d' with
    | pair a' b' =>
      simp only [ok, Bool.and_eq_true] at hd hd'
      simp only [chars, List.cons_append, List.append_assoc, List.nil_append, List.cons.injEq, true_and] at h
      obtain ⟨rfl, h1⟩ := chars_inj a a' _ _ hd.1 hd'.1 rfl rfl h
      simp only [List.cons.injEq, true_and] at h1
      obtain ⟨rfl, h2⟩ := chars_inj b b' _ _ hd.2 hd'.2 rfl rfl h1
      exact ⟨rfl, (List.cons.inj h2).2⟩
    | _ => cases hk
  | .list ds, d', x, y, hd, hd', hx, hy, h => by
    have hk : 2 = kindOf d' := kind_eq (plain := plain) hd hd' h
    cases d' with
    | list ds' =>
      match ds, ds' with
      | [], [] =>
        simp only [chars, List.cons_append, List.nil_append, List.cons.injEq, true_and] at h
        exact ⟨rfl, h⟩
      | [], d' :: ds' =>
        simp only [chars, List.cons_append, List.append_assoc, List.nil_append, List.cons.injEq, true_and] at h
        simp only [ok, oks, Bool.and_eq_true] at hd'
        obtain ⟨c, r, h1, h2⟩ := head plain d' hd'.1
        rw [h1] at h
        rw [← (List.cons.inj h).1] at h2
        obtain ⟨c, r, h3, h4, h5⟩ : ∃ c r, ']' :: x = c :: r ∧ kind c = 5 ∧ isWord c = false :=
          ⟨']', x, rfl, by decide, by decide⟩
        have : kindOf d' = 5 := by rw [← h2]; decide
        obtain ⟨e, n, t⟩ := chars_named (plain := plain) hd'.1 this []
        obtain ⟨c', r', e', _, w'⟩ := isName.head n
        rw [e', List.append_nil, h1] at e
        rw [← (List.cons.inj e).1, ← (List.cons.inj h).1] at w'
        exact absurd w' (by decide)
      | d :: ds, [] =>
        simp only [chars, List.cons_append, List.append_assoc, List.nil_append, List.cons.injEq, true_and] at h
        simp only [ok, oks, Bool.and_eq_true] at hd
        obtain ⟨c, r, h1, h2⟩ := head plain d hd.1
        rw [h1] at h
        rw [(List.cons.inj h).1] at h2
        have : kindOf d = 5 := by rw [← h2]; decide
        obtain ⟨e, n, t⟩ := chars_named (plain := plain) hd.1 this []
        obtain ⟨c', r', e', _, w'⟩ := isName.head n
        rw [e', List.append_nil, h1] at e
        rw [← (List.cons.inj e).1, (List.cons.inj h).1] at w'
        exact absurd w' (by decide)
      | d :: ds, d' :: ds' =>
        simp only [chars, List.cons_append, List.append_assoc, List.nil_append, List.cons.injEq, true_and] at h
        simp only [ok, oks, Bool.and_eq_true] at hd hd'
        obtain ⟨rfl, h1⟩ := chars_inj d d' _ _ hd.1 hd'.1 (follow_more _ _ _) (follow_more _ _ _) h
        obtain ⟨rfl, rfl⟩ := more_inj ds ds' x y hd.2 hd'.2 h1
        exact ⟨rfl, rfl⟩
    | _ => cases hk

theorem more_inj {plain : Char → Bool} : ∀ (ds ds' : List Dbg) (x y : List Char), oks ds = true →
    oks ds' = true → more plain ds ++ ']' :: x = more plain ds' ++ ']' :: y → ds = ds' ∧ x = y
  | [], [], x, y, _, _, h => ⟨rfl, (List.cons.inj h).2⟩
  | [], d' :: ds', x, y, _, _, h => absurd (List.cons.inj h).1 (by decide)
  | d :: ds, [], x, y, _, _, h => absurd (List.cons.inj h).1 (by decide)
  | d :: ds, d' :: ds', x, y, hd, hd', h => by
    simp only [oks, Bool.and_eq_true] at hd hd'
    simp only [more, List.cons_append, List.append_assoc, List.nil_append, List.cons.injEq, true_and] at h
    obtain ⟨rfl, h1⟩ := chars_inj d d' _ _ hd.1 hd'.1 (follow_more _ _ _) (follow_more _ _ _) h
    obtain ⟨rfl, rfl⟩ := more_inj ds ds' x y hd.2 hd'.2 h1
    exact ⟨rfl, rfl⟩

theorem moreFields_inj {plain : Char → Bool} : ∀ (fs fs' : List (String × Dbg)) (x y : List Char),
    okFields fs = true → okFields fs' = true →
    moreFields plain fs ++ ' ' :: '}' :: x = moreFields plain fs' ++ ' ' :: '}' :: y → fs = fs' ∧ x = y
  | [], [], x, y, _, _, h => ⟨rfl, (List.cons.inj (List.cons.inj h).2).2⟩
  | [], d' :: ds', x, y, _, _, h => absurd (List.cons.inj h).1 (by decide)
  | d :: ds, [], x, y, _, _, h => absurd (List.cons.inj h).1 (by decide)
  | (f, d) :: fs, (f', d') :: fs', x, y, hd, hd', h => by
    simp only [okFields, Bool.and_eq_true] at hd hd'
    simp only [moreFields, List.cons_append, List.append_assoc, List.nil_append, List.cons.injEq, true_and] at h
    obtain ⟨h1, h2⟩ := split_word (isName.word hd.1.1) (isName.word hd'.1.1) (Stop.colon _) (Stop.colon _) h
    simp only [List.cons.injEq, true_and] at h2
    obtain ⟨rfl, h3⟩ := chars_inj d d' _ _ hd.1.2 hd'.1.2 (follow_moreFields _ _ _) (follow_moreFields _ _ _) h2
    obtain ⟨rfl, rfl⟩ := moreFields_inj fs fs' x y hd.2 hd'.2 h3
    exact ⟨by rw [String.toList_inj.1 h1], rfl⟩

end

/-- Texts tell trees apart. -/
theorem text_inj {plain : Char → Bool} {d d' : Dbg} (h : ok d = true) (h' : ok d' = true)
    (e : text plain d = text plain d') : d = d' := by
  have := congrArg String.toList e
  simp only [text, String.toList_ofList] at this
  refine (chars_inj (plain := plain) d d' [] [] h h' rfl rfl ?_).1
  rw [this]

/-! ## One line -/

theorem isName.line {s : String} (h : isName s = true) : '\n' ∉ s.toList := fun hm =>
  absurd (isName.word h _ hm) (by decide)

mutual

theorem chars_line {plain : Char → Bool} : ∀ d : Dbg, ok d = true → '\n' ∉ chars plain d
  | .word s, h => isName.line h
  | .num i, _ => by
    rw [chars]
    have : '\n' ∉ Nat.toDigits 10 i.natAbs := fun hm =>
      absurd (Nat.isDigit_of_mem_toDigits (by decide) (by decide) hm) (by decide)
    split <;> simp [this]
  | .str s, _ => by simp [chars, escapes_line]
  | .list [], _ => by simp [chars]
  | .list (d :: ds), h => by
    simp only [ok, oks, Bool.and_eq_true] at h
    simp [chars, chars_line d h.1, more_line ds h.2]
  | .tuple n d, h => by
    simp only [ok, Bool.and_eq_true] at h
    simp [chars, chars_line d h.2, isName.line h.1]
  | .struct n [], h => by simp [ok] at h
  | .struct n ((f, d) :: fs), h => by
    simp only [ok, okFields, Bool.and_eq_true] at h
    simp [chars, isName.line h.1.1, isName.line h.2.1.1, chars_line d h.2.1.2, moreFields_line fs h.2.2]
  | .pair a b, h => by
    simp only [ok, Bool.and_eq_true] at h
    simp [chars, chars_line a h.1, chars_line b h.2]

theorem more_line {plain : Char → Bool} : ∀ ds : List Dbg, oks ds = true → '\n' ∉ more plain ds
  | [], _ => by simp [more]
  | d :: ds, h => by
    simp only [oks, Bool.and_eq_true] at h
    simp [more, chars_line d h.1, more_line ds h.2]

theorem moreFields_line {plain : Char → Bool} : ∀ fs : List (String × Dbg), okFields fs = true →
    '\n' ∉ moreFields plain fs
  | [], _ => by simp [moreFields]
  | (f, d) :: fs, h => by
    simp only [okFields, Bool.and_eq_true] at h
    simp [moreFields, isName.line h.1.1, chars_line d h.1.2, moreFields_line fs h.2]

end

end Dbg
end Dash7
