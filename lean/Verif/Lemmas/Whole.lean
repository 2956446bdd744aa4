import Verif.Lemmas.Items
import Verif.Lemmas.Total

/-!
# The entry points of derived readers, as functions of the bits given
-/

namespace Dash7

variable {α : Type}

/-- What `from_bytes` makes of reading `p` from bit `off` on. -/
def P.entry (p : P α) (data : List U8) (off : Nat) : Except Err (Rest × α) :=
  if off ≤ 8 * data.length then
    match p.eval ((bytesBits data).drop off) with
    | .ok (a, s) => .ok ((data.drop ((8 * data.length - s.length) / 8), (8 * data.length - s.length) % 8), a)
    | .error e => .error e
  else .error .incomplete

theorem P.startAt_ok (p : P α) (data : List U8) {off : Nat} (h : off ≤ 8 * data.length) {a : α} {s : List Bool}
    (he : p.eval ((bytesBits data).drop off) = .ok (a, s)) :
    ∃ r, startAt off p.run (Rd.new data) = .ok (a, r) ∧ r.bitsRead + s.length = 8 * data.length := by
  have hlen : (Rd.new data).rem.length = 8 * data.length := by rw [Rd.new_rem, bytesBits_length]
  unfold startAt
  split
  · obtain ⟨r, n, hr, st, hrem, hn⟩ := P.run_ok (P.pad off) (Rd.new_con data).toOK
      (Action.pad_eval (n := off) (by omega))
    rw [Rd.new_rem] at hrem
    rw [← hrem] at he
    obtain ⟨r', n', hr', st', hrem', hn'⟩ := P.run_ok p st.ok he
    refine ⟨r', by unfold R.bind; rw [hr]; exact hr', ?_⟩
    rw [st'.bitsRead, st.bitsRead, show (Rd.new data).bitsRead = 0 from rfl]
    rw [hrem, List.length_drop, bytesBits_length] at hn'
    rw [List.length_drop, hlen] at hn
    omega
  · rename_i h0
    have : off = 0 := by simpa using h0
    subst this
    rw [List.drop_zero] at he
    obtain ⟨r', n', hr', st', hrem', hn'⟩ := P.run_ok p (Rd.new_con data).toOK
      (a := a) (s' := s) (by rw [Rd.new_rem]; exact he)
    refine ⟨r', hr', ?_⟩
    rw [st'.bitsRead, show (Rd.new data).bitsRead = 0 from rfl]
    omega

theorem P.startAt_err (p : P α) (data : List U8) {off : Nat} (h : off ≤ 8 * data.length) {e : Err}
    (he : p.eval ((bytesBits data).drop off) = .error e) : startAt off p.run (Rd.new data) = .error e := by
  have hlen : (Rd.new data).rem.length = 8 * data.length := by rw [Rd.new_rem, bytesBits_length]
  unfold startAt
  split
  · obtain ⟨r, n, hr, st, hrem, hn⟩ := P.run_ok (P.pad off) (Rd.new_con data).toOK
      (Action.pad_eval (n := off) (by omega))
    rw [Rd.new_rem] at hrem
    rw [← hrem] at he
    unfold R.bind
    rw [hr]
    exact P.run_err p st.ok he
  · rename_i h0
    have : off = 0 := by simpa using h0
    subst this
    rw [List.drop_zero] at he
    exact P.run_err p (Rd.new_con data).toOK (by rw [Rd.new_rem]; exact he)

theorem startAt_beyond (m : R α) (data : List U8) {off : Nat} (h : ¬ off ≤ 8 * data.length) :
    startAt off m (Rd.new data) = .error .incomplete := by
  unfold startAt
  rw [if_pos (by omega)]
  unfold R.bind
  rw [P.run_err (P.pad off) (Rd.new_con data).toOK (e := .incomplete)
    (by
      unfold P.pad
      rw [P.eval_bits, if_neg]
      rw [Rd.new_rem, bytesBits_length]
      exact h)]

theorem P.derivedFromBytes_eq (p : P α) (data : List U8) (off : Nat) :
    derivedFromBytes p.run (data, off) = p.entry data off := by
  unfold derivedFromBytes P.entry
  dsimp only
  by_cases h : off ≤ 8 * data.length
  · rw [if_pos h]
    cases he : p.eval ((bytesBits data).drop off) with
    | error e => rw [P.startAt_err p data h he]
    | ok q =>
      obtain ⟨a, s⟩ := q
      obtain ⟨r, hr, hb⟩ := P.startAt_ok p data h he
      rw [hr]
      dsimp only
      rw [show r.bitsRead = 8 * data.length - s.length by omega]
      unfold sliceFrom
      rw [if_pos (by omega)]
  · rw [if_neg h, startAt_beyond _ _ h]

theorem P.fromBytes_eq (p : P α) (data : List U8) (off : Nat) :
    Dash7.fromBytes p.run (data, off) = p.entry data off := by
  unfold Dash7.fromBytes P.entry
  dsimp only
  by_cases h : off ≤ 8 * data.length
  · rw [if_pos h]
    cases he : p.eval ((bytesBits data).drop off) with
    | error e => rw [P.startAt_err p data h he]
    | ok q =>
      obtain ⟨a, s⟩ := q
      obtain ⟨r, hr, hb⟩ := P.startAt_ok p data h he
      rw [hr]
      dsimp only
      rw [show r.bitsRead = 8 * data.length - s.length by omega]
      generalize hk : 8 * data.length - s.length = k
      have hk' : k ≤ 8 * data.length := by omega
      have hp : padRest (data, off) k = .ok (data.drop (k / 8), k % 8) := by
        unfold padRest sliceFrom
        dsimp only
        by_cases h2 : data.length * 8 + off ≤ k
        · rw [if_pos h2, show k / 8 = data.length by omega, List.drop_length]
        · rw [if_neg h2, show (if k % 8 = 0 then k / 8 else (k - k % 8) / 8) = k / 8 by split <;> omega,
            if_pos (by omega)]
      rw [hp]
  · rw [if_neg h, startAt_beyond _ _ h]

theorem P.derivedTryFrom_eq (p : P α) (data : List U8) :
    derivedTryFrom p.run data =
      match p.eval (bytesBits data) with
      | .ok (a, s) => if s ≠ [] then .error (.fault .parse) else .ok a
      | .error e => .error e := by
  unfold derivedTryFrom
  have h0 : startAt 0 p.run (Rd.new data) = p.run (Rd.new data) := by rw [startAt_zero]
  rw [← h0]
  cases he : p.eval (bytesBits data) with
  | error e => rw [P.startAt_err p data (Nat.zero_le _) (by rw [List.drop_zero]; exact he)]
  | ok q =>
    obtain ⟨a, s⟩ := q
    obtain ⟨r, hr, hb⟩ := P.startAt_ok p data (Nat.zero_le _) (by rw [List.drop_zero]; exact he)
    rw [hr]
    dsimp only
    have : r.bitsRead / 8 ≠ data.length ↔ s ≠ [] := by
      rw [← List.length_pos_iff]
      omega
    simp only [this]

/-! ## What follows -/

namespace P

theorem entry_total {p : P α} (hp : p.Safe) (data : List U8) (off : Nat) :
    (∃ v, p.entry data off = .ok v) ∨ p.entry data off = .error .incomplete ∨
      p.entry data off = .error (.fault .parse) := by
  unfold entry
  split
  · split
    · exact .inl ⟨_, rfl⟩
    · rename_i e he
      cases e with
      | incomplete => exact .inr (.inl rfl)
      | fault f => rw [hp _ _ he]; exact .inr (.inr rfl)
  · exact .inr (.inl rfl)

theorem entry_ok {p : P α} {data : List U8} {off : Nat} {rest : Rest} {a : α}
    (h : p.entry data off = .ok (rest, a)) : off ≤ 8 * data.length ∧ ∃ s,
      p.eval ((bytesBits data).drop off) = .ok (a, s) ∧ off + s.length ≤ 8 * data.length ∧
      rest = (data.drop ((8 * data.length - s.length) / 8), (8 * data.length - s.length) % 8) := by
  unfold entry at h
  split at h
  · rename_i ho
    refine ⟨ho, ?_⟩
    split at h
    · rename_i b s he
      simp only [Except.ok.injEq, Prod.mk.injEq] at h
      obtain ⟨rfl, rfl⟩ := h
      refine ⟨s, he, ?_, rfl⟩
      have := p.eval_length he
      rw [List.length_drop, bytesBits_length] at this
      omega
    · cases h
  · cases h

theorem entry_extend {p : P α} {data : List U8} {off : Nat} {rest : Rest} {a : α}
    (h : p.entry data off = .ok (rest, a)) (more : List U8) :
    p.entry (data ++ more) off = .ok ((rest.1 ++ more, rest.2), a) := by
  obtain ⟨ho, s, he, hs, rfl⟩ := entry_ok h
  unfold entry
  have hl : (data ++ more).length = data.length + more.length := List.length_append
  rw [if_pos (by omega), bytesBits_append, List.drop_append_of_le_length (by rw [bytesBits_length]; omega),
    p.eval_extend he]
  dsimp only
  have h1 : 8 * (data ++ more).length - (s ++ bytesBits more).length = 8 * data.length - s.length := by
    rw [List.length_append, List.length_append, bytesBits_length]; omega
  rw [h1, List.drop_append_of_le_length (by omega)]

theorem entry_fault {p : P α} {data : List U8} {off : Nat} {f : Fault}
    (h : p.entry data off = .error (.fault f)) (more : List U8) :
    p.entry (data ++ more) off = .error (.fault f) := by
  unfold entry at h
  split at h
  · rename_i ho
    split at h
    · cases h
    · rename_i e he
      cases h
      have hl : (data ++ more).length = data.length + more.length := List.length_append
      unfold entry
      rw [if_pos (by omega), bytesBits_append, List.drop_append_of_le_length (by rw [bytesBits_length]; omega),
        p.eval_fault_extend he]
  · cases h

theorem entry_cut {p : P α} {data : List U8} {off : Nat} {rest : Rest} {a : α}
    (h : p.entry data off = .ok (rest, a)) {k : Nat} (hk : 8 * k < 8 * (data.length - rest.1.length) + rest.2) :
    p.entry (data.take k) off = .error .incomplete := by
  obtain ⟨ho, s, he, hs, rfl⟩ := entry_ok h
  dsimp only at hk
  rw [List.length_drop] at hk
  have hk' : 8 * k + s.length < 8 * data.length := by omega
  have hlen : (data.take k).length = k := by rw [List.length_take]; omega
  unfold entry
  split
  · rename_i ho'
    rw [hlen] at ho'
    have hb : (bytesBits (data.take k)).drop off = ((bytesBits data).drop off).take (8 * k - off) := by
      rw [bytesBits_take, List.drop_take]
    rw [hb, p.eval_truncate he (by rw [List.length_drop, bytesBits_length]; omega)]
  · rfl

theorem try_total {p : P α} (hp : p.Safe) (data : List U8) :
    (∃ v, derivedTryFrom p.run data = .ok v) ∨ derivedTryFrom p.run data = .error .incomplete ∨
      derivedTryFrom p.run data = .error (.fault .parse) := by
  rw [derivedTryFrom_eq]
  split
  · split
    · exact .inr (.inr rfl)
    · exact .inl ⟨_, rfl⟩
  · rename_i e he
    cases e with
    | incomplete => exact .inr (.inl rfl)
    | fault f => rw [hp _ _ he]; exact .inr (.inr rfl)

theorem try_fault {p : P α} {data : List U8} {f : Fault} (h : derivedTryFrom p.run data = .error (.fault f))
    (more : List U8) : derivedTryFrom p.run (data ++ more) = .error (.fault f) := by
  rw [derivedTryFrom_eq] at h ⊢
  rw [bytesBits_append]
  split at h
  · rename_i a s he
    rw [p.eval_extend he]
    dsimp only
    split at h
    · rename_i hs
      cases h
      rw [if_pos]
      intro h'
      exact hs (List.append_eq_nil_iff.1 h').1
    · cases h
  · rename_i e he
    cases h
    rw [p.eval_fault_extend he]

theorem try_extend {p : P α} {data : List U8} {a : α} (h : derivedTryFrom p.run data = .ok a) (more : List U8)
    (hm : more ≠ []) : derivedTryFrom p.run (data ++ more) = .error (.fault .parse) := by
  rw [derivedTryFrom_eq] at h ⊢
  rw [bytesBits_append]
  split at h
  · rename_i b s he
    split at h
    · cases h
    · rename_i hs
      cases h
      rw [p.eval_extend he]
      dsimp only
      rw [if_pos]
      intro h'
      have := congrArg List.length (List.append_eq_nil_iff.1 h').2
      rw [bytesBits_length] at this
      rw [List.length_nil] at this
      exact hm (List.length_eq_zero_iff.1 (by omega))
  · cases h

theorem try_cut {p : P α} {data : List U8} {a : α} (h : derivedTryFrom p.run data = .ok a) {k : Nat}
    (hk : k < data.length) : derivedTryFrom p.run (data.take k) = .error .incomplete := by
  rw [derivedTryFrom_eq] at h ⊢
  split at h
  · rename_i b s he
    split at h
    · cases h
    · rename_i hs
      have hs : s = [] := by simpa using hs
      subst hs
      rw [bytesBits_take, p.eval_truncate he (by rw [bytesBits_length]; simp; omega)]
  · cases h

end P

theorem Item.safe (cfg : Cfg) (i : Item) : (i.read cfg).Safe := by
  cases i <;> dsimp only [Item.read] <;> safe
  · unfold CsmaCaMode.read; safe
  · unfold Op.ForwardHeader.read; safe
  · unfold Op.RequestTagHeader.read; safe
  · unfold Op.TxStatusType.read; safe
  · unfold Trans.Control.read; safe
  · unfold Trans.AckTemplate.read; safe
  · unfold Net.Control.read; safe
  · unfold Net.HoppingControl.read; safe
  · unfold ForegroundFrameControl.read; safe
  · unfold BackgroundFrameControl.read; safe
  · unfold BackgroundFrame.read BackgroundFrameControl.read; safe

theorem File.post_bits (cfg : Cfg) (fid : FileId) (l : U32) :
    Post (File.read cfg fid l) fun f n => n = f.bits := by
  unfold read
  split
  · exact Post.bind AccessProfile.post fun _ _ h => Post.pure h.2
  · exact Post.bind (Address.post _) fun _ _ h => Post.pure h.2
  · exact Post.bind FactorySettings.post fun _ _ h => Post.pure h.2
  · exact Post.bind FirmwareVersion.post fun _ _ h => Post.pure h.2
  · exact Post.bind EngineeringMode.post fun _ _ h => Post.pure h.2
  · exact Post.bind (Address.post _) fun _ _ h => Post.pure h.2
  · exact Post.bind PhyStatus.post fun _ _ h => Post.pure h.2
  · exact Post.bind DllConfig.post fun _ _ h => Post.pure h.2
  · exact Post.bind DllStatus.post fun _ _ h => Post.pure h.2
  · exact Post.bind (SecurityKey.post cfg) fun _ _ h => Post.pure h.2
  · refine Post.bind (Post.bytes _) fun b _ ⟨h1, h2⟩ => Post.pure ?_
    simp only [bits]; omega

end Dash7
