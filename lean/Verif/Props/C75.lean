import Verif.Spec.Signing
import Verif.Lemmas.Decode
import Verif.Props.C10_C13
/-!
C75: signed frames (mavlink_utils/HC_dialect.py:212-219, 8582-8595, 8774-8819, 8868-8895).
-/
namespace NR
open Spec Dialect

/-! ### The decoder with signing is the plain decoder behind a gate -/

theorem decodeBodyS_eq (H : List Byte → List Byte) (s : Signing) (f : List Byte)
    (hl magic mlen inc comp seq sys cmp id : Nat) :
    decodeBodyS H s f hl magic mlen inc comp seq sys cmp id =
      match decodeBody f hl magic mlen inc comp seq sys cmp id with
      | .error e => (s, .error e)
      | .ok m =>
        match signatureGate H s f (if inc % 2 = 1 then 13 else 0) sys cmp id with
        | (s, .error e) => (s, .error e)
        | (s, .ok b) => (s, .ok ⟨m, b, if b then some (linkOf f) else none⟩) := by
  have hdb := decodeBody_eq f hl magic mlen inc comp seq sys cmp id
  unfold decodeBodyS
  unfold decodeBody at hdb ⊢
  simp only at hdb ⊢
  generalize (if inc % 2 = 1 then 13 else 0) = sig at hdb ⊢
  split
  · rfl
  rename_i hmag
  rw [if_neg hmag] at hdb
  split
  · rfl
  rename_i hlen
  rw [if_neg hlen] at hdb
  cases hm : lookupMsg id with
  | none => rfl
  | some type =>
    rw [hm] at hdb
    simp only at hdb ⊢
    split
    · rfl
    rename_i hcl
    rw [if_neg hcl] at hdb
    split
    · rfl
    rename_i hcrc
    rw [if_neg hcrc] at hdb
    have hpre : (magic = 254 ∨ magic = 253) ∧ f.length = mlen + hl + 2 + sig ∧
        leNat ((f.drop (f.length - (2 + sig))).take 2) =
          (x25 (pySlice f 1 (f.length - (2 + sig)) ++ [BitVec.ofNat 8 type.crcExtra])).toNat :=
      ⟨by omega, by omega, by simpa using hcrc⟩
    rw [if_pos hpre] at hdb
    have hp : decodePayload type f hl (f.length - (2 + sig)) mlen inc comp seq sys cmp id
        (leNat ((f.drop (f.length - (2 + sig))).take 2)) = _ := hdb
    rw [hdb, hp]
    rcases signatureGate H s f sig sys cmp id with ⟨s', e | b⟩ <;> rfl

/-- The signing decoder: a frame the plain decoder refuses is refused in the same way and changes nothing; for any other
the signature gate decides. -/
theorem decodeS_eq (H : List Byte → List Byte) (s : Signing) (f : List Byte) :
    decodeS H s f =
      match decode f with
      | .error e => (s, .error e)
      | .ok m =>
        match signatureGate H s f (if m.incompat % 2 = 1 then 13 else 0) m.srcSystem m.srcComponent m.msgId with
        | (s, .error e) => (s, .error e)
        | (s, .ok b) => (s, .ok ⟨m, b, if b then some (linkOf f) else none⟩) := by
  have key : ∀ hl magic mlen inc comp seq sys cmp id m,
      decodeBody f hl magic mlen inc comp seq sys cmp id = .ok m →
      m.incompat = inc ∧ m.srcSystem = sys ∧ m.srcComponent = cmp ∧ m.msgId = id := by
    intro hl magic mlen inc comp seq sys cmp id m h
    rw [decodeBody_eq] at h
    simp only at h
    generalize (if inc % 2 = 1 then 13 else 0) = sig at h
    split at h
    · cases h
    · split at h
      · cases h; exact ⟨rfl, rfl, rfl, rfl⟩
      · cases h
  have step : ∀ hl magic mlen inc comp seq sys cmp id,
      decodeBodyS H s f hl magic mlen inc comp seq sys cmp id =
      match decodeBody f hl magic mlen inc comp seq sys cmp id with
      | .error e => (s, .error e)
      | .ok m =>
        match signatureGate H s f (if m.incompat % 2 = 1 then 13 else 0) m.srcSystem m.srcComponent m.msgId with
        | (s, .error e) => (s, .error e)
        | (s, .ok b) => (s, .ok ⟨m, b, if b then some (linkOf f) else none⟩) := by
    intro hl magic mlen inc comp seq sys cmp id
    rw [decodeBodyS_eq]
    have hk := key hl magic mlen inc comp seq sys cmp id
    cases hd : decodeBody f hl magic mlen inc comp seq sys cmp id with
    | error e => rfl
    | ok m =>
      obtain ⟨h1, h2, h3, h4⟩ := hk m hd
      simp only [h1, h2, h3, h4]
  unfold decodeS decode
  match f, step with
  | [], _ => rfl
  | b0 :: rest, step =>
    simp only
    split
    · split
      · rename_i heq
        obtain ⟨rfl, rfl⟩ := List.cons.inj heq
        exact step _ _ _ _ _ _ _ _ _
      · rename_i hno
        split
        · rename_i heq
          split at heq
          · rename_i h2; exact (hno _ _ _ _ _ _ _ _ _ _ _ h2).elim
          · cases heq; rfl
        · rename_i heq
          split at heq
          · rename_i h2; exact (hno _ _ _ _ _ _ _ _ _ _ _ h2).elim
          · cases heq
    · split
      · rename_i heq
        obtain ⟨rfl, rfl⟩ := List.cons.inj heq
        exact step _ _ _ _ _ _ _ _ _
      · rename_i hno
        split
        · rename_i heq
          split at heq
          · rename_i h2; exact (hno _ _ _ _ _ _ _ h2).elim
          · cases heq; rfl
        · rename_i heq
          split at heq
          · rename_i h2; exact (hno _ _ _ _ _ _ _ h2).elim
          · cases heq

theorem leNat_split (l : List Byte) : leNat (l.take 4) + leNat (l.drop 4) * 2 ^ 32 = leNat l := by
  match l with
  | [] => rfl
  | [a] => simp [leNat]
  | [a, b] => simp [leNat]
  | [a, b, c] => simp [leNat]
  | a :: b :: c :: d :: r => simp [leNat]; omega

/-! ### `check_signature` and the gate -/

/-- What `check_signature` answers and what it changes. -/
theorem check_spec (H : List Byte → List Byte) (key : List Byte) (s : Signing) (f : List Byte) (sys cmp : Nat) :
    ((checkSignature H key s f sys cmp).2 = true ↔
      SigMatches H key f ∧ FreshStamp s f (linkOf f, sys, cmp)) ∧
    (checkSignature H key s f sys cmp).1 =
      { s with
        streams := if markOf s (linkOf f, sys, cmp) = none ∧ s.timestamp ≤ stampOf f + 6000000 then
            s.streams ++ [((linkOf f, sys, cmp), stampOf f)] else s.streams
        timestamp := if (checkSignature H key s f sys cmp).2 then max s.timestamp (stampOf f) else s.timestamp } := by
  unfold checkSignature FreshStamp
  simp only [leNat_split]
  have hst : leNat (pySlice f (f.length - 12) (f.length - 6)) = stampOf f := rfl
  have hlk : (f.getD (f.length - 13) 0).toNat = linkOf f := rfl
  rw [hst, hlk]
  have hmk : s.streams.lookup (linkOf f, sys, cmp) = markOf s (linkOf f, sys, cmp) := rfl
  rw [hmk]
  have hsig : ((H (key ++ f.take (f.length - 6))).take 6 ≠ f.drop (f.length - 6)) ↔ ¬ SigMatches H key f := by
    unfold SigMatches; rw [not_iff_not]; exact eq_comm
  by_cases hs : SigMatches H key f
  · have hs' : ¬ ((H (key ++ f.take (f.length - 6))).take 6 ≠ f.drop (f.length - 6)) := by
      rw [hsig]; exact not_not.2 hs
    cases hm : markOf s (linkOf f, sys, cmp) with
    | some t =>
      simp only [if_neg hs']
      by_cases h : stampOf f ≤ t
      · simp [h]
      · simp [h, hs, Nat.lt_of_not_le h]
    | none =>
      simp only [if_neg hs']
      by_cases h : stampOf f + 6000 * 1000 < s.timestamp
      · have : ¬ s.timestamp ≤ stampOf f + 6000000 := by omega
        simp [h, this]
      · have : s.timestamp ≤ stampOf f + 6000000 := by omega
        simp [h, this, hs]
  · have hs' : (H (key ++ f.take (f.length - 6))).take 6 ≠ f.drop (f.length - 6) := hsig.2 hs
    cases hm : markOf s (linkOf f, sys, cmp) with
    | some t =>
      simp only [if_pos hs']
      by_cases h : stampOf f ≤ t
      · simp [h]
      · simp [h, hs]
    | none =>
      simp only [if_pos hs']
      by_cases h : stampOf f + 6000 * 1000 < s.timestamp
      · have : ¬ s.timestamp ≤ stampOf f + 6000000 := by omega
        simp [h, this]
      · have : s.timestamp ≤ stampOf f + 6000000 := by omega
        simp [h, this, hs]

/-- The whole step for a frame the plain decoder accepts, when a key is set. -/
theorem stepS {H : List Byte → List Byte} {key : List Byte} {s : Signing} (hk : s.secretKey = some key) {f : List Byte}
    {m : MavMsg} (hd : decode f = .ok m) :
    (Genuine H key s f m → (decodeS H s f).2 = .ok ⟨m, true, some (linkOf f)⟩) ∧
    (¬ Genuine H key s f m → Allowed s m.msgId → (decodeS H s f).2 = .ok ⟨m, false, none⟩) ∧
    (¬ Genuine H key s f m → ¬ Allowed s m.msgId → (decodeS H s f).2 = .error .mavError) := by
  rw [decodeS_eq, hd]
  simp only
  unfold Genuine Flagged streamOf
  by_cases hf : m.incompat % 2 = 1
  · simp only [hf, if_true, true_and, signatureGate, hk]
    have hc := (check_spec H key { s with sigCount := s.sigCount + 1 } f m.srcSystem m.srcComponent).1
    have hc2 := (check_spec H key { s with sigCount := s.sigCount + 1 } f m.srcSystem m.srcComponent).2
    simp only [hk] at hc hc2 ⊢
    generalize checkSignature H key _ f m.srcSystem m.srcComponent = r at hc hc2 ⊢
    obtain ⟨s', ok⟩ := r
    simp only at hc hc2 ⊢
    have hmk : FreshStamp { s with sigCount := s.sigCount + 1 } f (linkOf f, m.srcSystem, m.srcComponent) =
      FreshStamp s f (linkOf f, m.srcSystem, m.srcComponent) := rfl
    simp only [hk] at hmk
    rw [hmk] at hc
    rw [← hc]
    cases ok with
    | true => simp
    | false =>
      have hal : s'.allowUnsigned = s.allowUnsigned := by rw [hc2]
      simp only [askUnsigned, hal, Bool.false_eq_true, not_false_eq_true, if_false, true_implies, false_implies, true_and]
      unfold Allowed
      cases s.allowUnsigned with
      | none => simp
      | some cb => by_cases h : cb m.msgId <;> simp [h]
  · simp only [hf, if_false, false_and, signatureGate, hk, not_false_eq_true, true_implies, false_implies, true_and]
    simp only [askUnsigned]
    unfold Allowed
    simp only [show ¬ (0 = 13) by omega, if_false, hk]
    cases s.allowUnsigned with
    | none => simp
    | some cb => by_cases h : cb m.msgId <;> simp [h]

/-! ### Without a key -/

/-- C75: with no key configured signatures are ignored: every frame is treated as by the plain decoder, the message is
never marked as signed, and only the count of signed frames changes. -/
theorem c75_no_key (H : List Byte → List Byte) (s : Signing) (hk : s.secretKey = none) (f : List Byte) :
    (decodeS H s f).2 = (decode f).map (fun m => ⟨m, false, none⟩) ∧
    ∃ k ≤ 1, (decodeS H s f).1 = { s with sigCount := s.sigCount + k } := by
  rw [decodeS_eq]
  cases decode f with
  | error e => exact ⟨rfl, 0, by omega, rfl⟩
  | ok m =>
    simp only [signatureGate]
    by_cases hf : m.incompat % 2 = 1
    · simp only [hf, if_true, hk]
      exact ⟨rfl, 1, by omega, rfl⟩
    · simp only [hf, if_false, show ¬ (0 = 13) by omega, hk]
      exact ⟨rfl, 0, by omega, by rw [← hk]; rfl⟩

/-! ### With a key: who gets in -/

/-- C75: with a key, a frame is accepted iff it is a well-formed frame that is genuine (flagged as signed, carrying the
digest of key and frame, with an acceptable timestamp) or whose message id the callback lets through. -/
theorem c75_accept_iff (H : List Byte → List Byte) (key : List Byte) (s : Signing) (hk : s.secretKey = some key)
    (f : List Byte) :
    Returns (decodeS H s f).2 ↔ ∃ m, decode f = .ok m ∧ (Genuine H key s f m ∨ Allowed s m.msgId) := by
  cases hd : decode f with
  | error e =>
    rw [decodeS_eq, hd]
    constructor
    · rintro ⟨a, h⟩; cases h
    · rintro ⟨m, h, _⟩; cases h
  | ok m =>
    obtain ⟨h1, h2, h3⟩ := stepS (H := H) hk hd
    constructor
    · intro hr
      refine ⟨m, rfl, ?_⟩
      by_contra hn
      rw [not_or] at hn
      rw [h3 hn.1 hn.2] at hr
      obtain ⟨a, ha⟩ := hr; cases ha
    · rintro ⟨m', hm', hg⟩
      cases hm'
      by_cases hgen : Genuine H key s f m
      · exact ⟨_, h1 hgen⟩
      · exact ⟨_, h2 hgen (hg.resolve_left hgen)⟩

/-- C75: what is returned is the message of the plain decoder; it is marked as signed, with its link id, iff it is
genuine. -/
theorem c75_result (H : List Byte → List Byte) (key : List Byte) (s : Signing) (hk : s.secretKey = some key) (f : List Byte)
    (r : SignedMsg) (hr : (decodeS H s f).2 = .ok r) :
    decode f = .ok r.msg ∧ (r.signed = true ↔ Genuine H key s f r.msg) ∧
      r.linkId = if r.signed then some (linkOf f) else none := by
  cases hd : decode f with
  | error e => rw [decodeS_eq, hd] at hr; cases hr
  | ok m =>
    obtain ⟨h1, h2, h3⟩ := stepS (H := H) hk hd
    by_cases hg : Genuine H key s f m
    · rw [h1 hg] at hr; cases hr; exact ⟨rfl, by simp [hg], rfl⟩
    · by_cases ha : Allowed s m.msgId
      · rw [h2 hg ha] at hr; cases hr; exact ⟨rfl, by simp [hg], rfl⟩
      · rw [h3 hg ha] at hr; cases hr

/-- C75: a refused frame (of at least one byte) raises MAVError. -/
theorem c75_refused (H : List Byte → List Byte) (s : Signing) (f : List Byte) (hne : f ≠ [])
    (hr : ¬ Returns (decodeS H s f).2) : Raises (decodeS H s f).2 .mavError := by
  rcases c12_only_maverror f hne with ⟨m, hm⟩ | hm
  · cases hk : s.secretKey with
    | none =>
      rw [(c75_no_key H s hk f).1, hm] at hr
      exact absurd ⟨_, rfl⟩ hr
    | some key =>
      obtain ⟨h1, h2, h3⟩ := stepS (H := H) hk hm
      by_cases hg : Genuine H key s f m
      · exact absurd ⟨_, h1 hg⟩ hr
      · by_cases ha : Allowed s m.msgId
        · exact absurd ⟨_, h2 hg ha⟩ hr
        · exact h3 hg ha
  · have : decode f = .error .mavError := hm
    rw [decodeS_eq, this]

/-! ### What is remembered -/

/-- The state after one frame, when a key is set. -/
theorem stateS {H : List Byte → List Byte} {key : List Byte} {s : Signing} (hk : s.secretKey = some key) (f : List Byte) :
    (decodeS H s f).1.secretKey = some key ∧ (decodeS H s f).1.allowUnsigned = s.allowUnsigned ∧
    (decodeS H s f).1.streams =
      (match decode f with
      | .error _ => s.streams
      | .ok m => if m.incompat % 2 = 1 ∧ markOf s (streamOf f m) = none ∧ s.timestamp ≤ stampOf f + 6000000 then
            s.streams ++ [(streamOf f m, stampOf f)] else s.streams) ∧
    (decodeS H s f).1.timestamp =
      (match (decodeS H s f).2 with
      | .ok r => if r.signed then max s.timestamp (stampOf f) else s.timestamp
      | .error _ => s.timestamp) ∧
    (decodeS H s f).1.sigCount + s.goodsigCount + s.badsigCount =
      s.sigCount + (decodeS H s f).1.goodsigCount + (decodeS H s f).1.badsigCount := by
  rw [decodeS_eq]
  cases hd : decode f with
  | error e => exact ⟨hk, rfl, rfl, rfl, rfl⟩
  | ok m =>
    simp only
    unfold streamOf
    by_cases hf : m.incompat % 2 = 1
    · simp only [hf, if_true, true_and, signatureGate, hk]
      have hc2 := (check_spec H key { s with sigCount := s.sigCount + 1 } f m.srcSystem m.srcComponent).2
      simp only [hk] at hc2 ⊢
      have hmk : markOf { s with sigCount := s.sigCount + 1 } (linkOf f, m.srcSystem, m.srcComponent) =
        markOf s (linkOf f, m.srcSystem, m.srcComponent) := rfl
      simp only [hk] at hmk
      rw [hmk] at hc2
      generalize checkSignature H key _ f m.srcSystem m.srcComponent = r at hc2 ⊢
      obtain ⟨s', ok⟩ := r
      simp only at hc2 ⊢
      cases ok with
      | true =>
        simp only [if_true] at hc2
        subst hc2
        simp; omega
      | false =>
        simp only [Bool.false_eq_true, if_false] at hc2
        subst hc2
        simp only [askUnsigned, Bool.false_eq_true, if_false]
        cases hal : s.allowUnsigned with
        | none => simp; omega
        | some cb => by_cases h : cb m.msgId <;> simp [h] <;> omega
    · simp only [hf, if_false, false_and, signatureGate, hk, askUnsigned, show ¬ (0 = 13) by omega]
      cases hal : s.allowUnsigned with
      | none => simp [hal, hk]
      | some cb => by_cases h : cb m.msgId <;> simp [h, hal, hk]

theorem lookup_append_some {α β : Type} [BEq α] [LawfulBEq α] (l r : List (α × β)) (k : α) (v : β)
    (h : l.lookup k = some v) : (l ++ r).lookup k = some v := by
  induction l with
  | nil => cases h
  | cons a l ih =>
    obtain ⟨a1, a2⟩ := a
    simp only [List.cons_append, List.lookup_cons] at h ⊢
    split <;> rename_i hk <;> simp only [hk] at h
    · exact h
    · exact ih h

theorem lookup_append_none {α β : Type} [BEq α] [LawfulBEq α] (l : List (α × β)) (k : α) (v : β)
    (h : l.lookup k = none) : (l ++ [(k, v)]).lookup k = some v := by
  induction l with
  | nil => simp
  | cons a l ih =>
    obtain ⟨a1, a2⟩ := a
    simp only [List.cons_append, List.lookup_cons] at h ⊢
    split <;> rename_i hk <;> simp only [hk] at h
    · cases h
    · exact ih h

theorem mark_step {H : List Byte → List Byte} {key : List Byte} {s : Signing} (hk : s.secretKey = some key) (f : List Byte)
    {k : Nat × Nat × Nat} {t : Nat} (h : markOf s k = some t) : markOf (decodeS H s f).1 k = some t := by
  unfold markOf at h ⊢
  rw [(stateS hk f).2.2.1]
  split
  · exact h
  · split
    · exact lookup_append_some _ _ _ _ h
    · exact h

/-- C75: the timestamp recorded for a stream never changes again, whatever is received. -/
theorem c75_mark_fixed (H : List Byte → List Byte) (key : List Byte) (s : Signing) (hk : s.secretKey = some key)
    (k : Nat × Nat × Nat) (t : Nat) (h : markOf s k = some t) (gs : List (List Byte)) :
    markOf (decodeAllS H s gs) k = some t ∧ (decodeAllS H s gs).secretKey = some key ∧
      (decodeAllS H s gs).allowUnsigned = s.allowUnsigned := by
  induction gs generalizing s with
  | nil => exact ⟨h, hk, rfl⟩
  | cons g gs ih =>
    have := ih (decodeS H s g).1 (stateS hk g).1 (mark_step hk g h)
    rw [(stateS hk g).2.1] at this
    exact this

/-- C75: frames are not protected against replay: a signed frame accepted on a stream that was known before is accepted
again, whatever is received in between. -/
theorem c75_replay (H : List Byte → List Byte) (key : List Byte) (s : Signing) (hk : s.secretKey = some key)
    (f : List Byte) (r : SignedMsg) (hr : (decodeS H s f).2 = .ok r) (hs : r.signed = true)
    (hm : markOf s (streamOf f r.msg) ≠ none) (gs : List (List Byte)) :
    (decodeS H (decodeAllS H s (f :: gs)) f).2 = .ok r := by
  obtain ⟨t, ht⟩ := Option.ne_none_iff_exists'.1 hm
  obtain ⟨hd, hg, hl⟩ := c75_result H key s hk f r hr
  obtain ⟨h1, h2, _⟩ := c75_mark_fixed H key s hk _ t ht (f :: gs)
  obtain ⟨g1, g2, g3⟩ := hg.1 hs
  have hgen : Genuine H key (decodeAllS H s (f :: gs)) f r.msg := by
    refine ⟨g1, g2, ?_⟩
    unfold FreshStamp at g3 ⊢
    rw [ht] at g3
    rw [h1]; exact g3
  rw [(stepS h2 hd).1 hgen]
  obtain ⟨rm, rs, rl⟩ := r
  simp only at hs hl ⊢
  subst hs
  rw [hl]; rfl

/-- C75: once a flagged frame with an acceptable timestamp has arrived on a stream not seen before - accepted or not - no
flagged frame of that stream with the same or an older timestamp is accepted as signed. -/
theorem c75_first_frame (H : List Byte → List Byte) (key : List Byte) (s : Signing) (hk : s.secretKey = some key)
    (f : List Byte) (m : MavMsg) (hd : decode f = .ok m) (hf : Flagged m) (hnew : markOf s (streamOf f m) = none)
    (hts : FreshStamp s f (streamOf f m)) (gs : List (List Byte)) (g : List Byte) (mg : MavMsg) (hg : decode g = .ok mg)
    (hst : streamOf g mg = streamOf f m) (hold : stampOf g ≤ stampOf f) (hna : ¬ Allowed s mg.msgId) :
    Raises (decodeS H (decodeAllS H s (f :: gs)) g).2 .mavError := by
  have hmark : markOf (decodeS H s f).1 (streamOf f m) = some (stampOf f) := by
    unfold markOf
    rw [(stateS hk f).2.2.1, hd]
    unfold FreshStamp at hts
    rw [hnew] at hts
    simp only
    rw [if_pos ⟨hf, hnew, hts⟩]
    exact lookup_append_none _ _ _ hnew
  obtain ⟨h1, h2, h3⟩ := c75_mark_fixed H key _ (stateS hk f).1 _ _ hmark gs
  refine (stepS h2 hg).2.2 ?_ ?_
  · rintro ⟨_, _, h⟩
    unfold FreshStamp at h
    rw [hst, h1] at h
    simp only at h
    omega
  · unfold Allowed at hna ⊢
    rw [h3, (stateS hk f).2.1]
    exact hna

theorem stampOf_lt (f : List Byte) : stampOf f < 2 ^ 48 := by
  unfold stampOf
  have h := leNat_lt ((f.take (f.length - 6)).drop (f.length - 12))
  have hl : ((f.take (f.length - 6)).drop (f.length - 12)).length ≤ 6 := by simp; omega
  calc _ < 256 ^ ((f.take (f.length - 6)).drop (f.length - 12)).length := h
    _ ≤ 256 ^ 6 := Nat.pow_le_pow_right (by omega) hl
    _ = 2 ^ 48 := by decide

/-- C75: a stream can be shut out without knowing the key: one flagged frame (with any signature) carrying the largest
timestamp, received before the first frame of a stream, makes every later frame of that stream be refused. -/
theorem c75_forged_frame (H : List Byte → List Byte) (key : List Byte) (s : Signing) (hk : s.secretKey = some key)
    (hclock : s.timestamp < 2 ^ 48) (hcb : s.allowUnsigned = none)
    (f : List Byte) (m : MavMsg) (hd : decode f = .ok m) (hf : Flagged m) (hnew : markOf s (streamOf f m) = none)
    (hmax : stampOf f = 2 ^ 48 - 1) (gs : List (List Byte)) (g : List Byte) (mg : MavMsg) (hg : decode g = .ok mg)
    (hst : streamOf g mg = streamOf f m) : Raises (decodeS H (decodeAllS H s (f :: gs)) g).2 .mavError := by
  refine c75_first_frame H key s hk f m hd hf hnew ?_ gs g mg hg hst ?_ ?_
  · unfold FreshStamp; rw [hnew]; simp only; omega
  · have := stampOf_lt g; omega
  · rintro ⟨cb, h, _⟩; rw [hcb] at h; cases h

/-- C75: the receiver's clock is the largest of its start value and the timestamps of the frames accepted as signed. -/
theorem c75_clock (H : List Byte → List Byte) (key : List Byte) (s : Signing) (hk : s.secretKey = some key) (f : List Byte) :
    (decodeS H s f).1.timestamp =
      match (decodeS H s f).2 with
      | .ok r => if r.signed then max s.timestamp (stampOf f) else s.timestamp
      | .error _ => s.timestamp :=
  (stateS hk f).2.2.2.1

/-- C75: with a key set, the number of flagged frames seen is the number found good plus the number found bad. -/
theorem c75_counts (H : List Byte → List Byte) (key : List Byte) (s : Signing) (hk : s.secretKey = some key)
    (h0 : s.sigCount = s.goodsigCount + s.badsigCount) (gs : List (List Byte)) :
    (decodeAllS H s gs).sigCount = (decodeAllS H s gs).goodsigCount + (decodeAllS H s gs).badsigCount := by
  induction gs generalizing s with
  | nil => exact h0
  | cons g gs ih =>
    have := (stateS (H := H) hk g).2.2.2.2
    exact ih (decodeS H s g).1 (stateS hk g).1 (by omega)

open Classical in
/-- C75: what each counter counts. A frame the plain decoder refuses changes nothing. For any other, one is added to the flagged frames
if it is flagged, to the good ones if it is genuine, to the bad ones if it is flagged but not genuine; and if it is not genuine and
there is a callback, to the unsigned or to the rejected frames by the callback's answer. -/
theorem c75_each_count (H : List Byte → List Byte) (key : List Byte) (s : Signing) (hk : s.secretKey = some key)
    (f : List Byte) :
    ((∀ m, decode f ≠ .ok m) → (decodeS H s f).1 = s) ∧
    ∀ m, decode f = .ok m →
      (decodeS H s f).1.sigCount = s.sigCount + (if Flagged m then 1 else 0) ∧
      (decodeS H s f).1.goodsigCount = s.goodsigCount + (if Genuine H key s f m then 1 else 0) ∧
      (decodeS H s f).1.badsigCount = s.badsigCount + (if Flagged m ∧ ¬ Genuine H key s f m then 1 else 0) ∧
      (decodeS H s f).1.unsignedCount = s.unsignedCount + (if ¬ Genuine H key s f m ∧ Allowed s m.msgId then 1 else 0) ∧
      (decodeS H s f).1.rejectCount = s.rejectCount +
        (if ¬ Genuine H key s f m ∧ s.allowUnsigned ≠ none ∧ ¬ Allowed s m.msgId then 1 else 0) := by
  rw [decodeS_eq]
  constructor
  · intro h
    cases hd : decode f with
    | error e => rfl
    | ok m => exact absurd hd (h m)
  · intro m hd
    rw [hd]
    simp only
    unfold Genuine Flagged streamOf
    by_cases hf : m.incompat % 2 = 1
    · simp only [hf, if_true, true_and, signatureGate, hk]
      have hc := (check_spec H key { s with sigCount := s.sigCount + 1 } f m.srcSystem m.srcComponent).1
      have hc2 := (check_spec H key { s with sigCount := s.sigCount + 1 } f m.srcSystem m.srcComponent).2
      simp only [hk] at hc hc2 ⊢
      generalize checkSignature H key _ f m.srcSystem m.srcComponent = r at hc hc2 ⊢
      obtain ⟨s', ok⟩ := r
      simp only at hc hc2 ⊢
      have hmk : FreshStamp { s with sigCount := s.sigCount + 1 } f (linkOf f, m.srcSystem, m.srcComponent) =
        FreshStamp s f (linkOf f, m.srcSystem, m.srcComponent) := rfl
      simp only [hk] at hmk
      rw [hmk] at hc
      simp only [← hc]
      have a1 : s'.sigCount = s.sigCount + 1 := by rw [hc2]
      have a2 : s'.goodsigCount = s.goodsigCount := by rw [hc2]
      have a3 : s'.badsigCount = s.badsigCount := by rw [hc2]
      have a4 : s'.unsignedCount = s.unsignedCount := by rw [hc2]
      have a5 : s'.rejectCount = s.rejectCount := by rw [hc2]
      have a6 : s'.allowUnsigned = s.allowUnsigned := by rw [hc2]
      clear hc2 hmk
      cases ok with
      | true => simp [a1, a2, a3, a4, a5]
      | false =>
        simp only [askUnsigned, Bool.false_eq_true, if_false, a6]
        unfold Allowed
        cases s.allowUnsigned with
        | none => simp [a1, a2, a3, a4, a5]
        | some cb => by_cases h : cb m.msgId <;> simp [h, a1, a2, a3, a4, a5]
    · simp only [hf, if_false, false_and, signatureGate, hk, askUnsigned, show ¬ (0 = 13) by omega]
      unfold Allowed
      cases hal : s.allowUnsigned with
      | none => simp [hal]
      | some cb => by_cases h : cb m.msgId <;> simp [h]

/-! ### Concrete frames -/

/-- A version-2 HEARTBEAT frame flagged as signed, on link 0 from system 1, component 1, with timestamp bytes
`t, u, u, u, u, u`, without its signature. -/
def sgBody (t u : Byte) : List Byte :=
  [253, 9, 1, 0, 0, 1, 1, 0, 0, 0, 1, 2, 3, 4, 5, 6, 7, 8, 9, 0xa1, 0x48, 0, t, u, u, u, u, u]

/-- The frame signed with `key`, timestamp `t`. -/
def sgFrame (H : List Byte → List Byte) (key : List Byte) (t : Byte) : List Byte :=
  sgBody t 0 ++ (H (key ++ sgBody t 0)).take 6

/-- A receiver with a key that has received nothing. -/
def sgStart (key : List Byte) : Signing := { Signing.init with secretKey := some key }

theorem sg_decode (t u : Byte) (l : List Byte) (hl : l.length = 6) :
    ∃ m, decode (sgBody t u ++ l) = .ok m ∧ m.incompat = 1 ∧ m.srcSystem = 1 ∧ m.srcComponent = 1 ∧
      linkOf (sgBody t u ++ l) = 0 ∧ stampOf (sgBody t u ++ l) = leNat [t, u, u, u, u, u] := by
  match l, hl with
  | [a, b, c, d, e, g], _ => exact ⟨_, rfl, rfl, rfl, rfl, rfl, rfl⟩

theorem sg_genuine {H : List Byte → List Byte} (hH : ∀ x, 6 ≤ (H x).length) (key : List Byte) (s : Signing) (t : Byte)
    (hf : FreshStamp s (sgFrame H key t) (0, 1, 1)) :
    ∃ m, decode (sgFrame H key t) = .ok m ∧ Genuine H key s (sgFrame H key t) m ∧
      streamOf (sgFrame H key t) m = (0, 1, 1) ∧ stampOf (sgFrame H key t) = t.toNat := by
  have hl : ((H (key ++ sgBody t 0)).take 6).length = 6 := by rw [List.length_take]; have := hH (key ++ sgBody t 0); omega
  obtain ⟨m, h1, h2, h3, h4, h5, h6⟩ := sg_decode t 0 _ hl
  have hst : streamOf (sgFrame H key t) m = (0, 1, 1) := by
    unfold streamOf; rw [h3, h4]; unfold sgFrame; rw [h5]
  refine ⟨m, h1, ⟨by unfold Flagged; rw [h2], ?_, by rw [hst]; exact hf⟩, hst, by unfold sgFrame; rw [h6]; simp [leNat]⟩
  unfold SigMatches sgFrame
  have hlen : (sgBody t 0 ++ (H (key ++ sgBody t 0)).take 6).length - 6 = (sgBody t 0).length := by
    rw [List.length_append, hl]; omega
  rw [hlen, List.drop_left, List.take_left]

/-- The first and the second frame of a stream are accepted, and the second one again. -/
theorem sg_history {H : List Byte → List Byte} (hH : ∀ x, 6 ≤ (H x).length) (key : List Byte) :
    ∃ r, (decodeS H (decodeAllS H (sgStart key) [sgFrame H key 1]) (sgFrame H key 2)).2 = .ok r ∧ r.signed = true ∧
      markOf (decodeAllS H (sgStart key) [sgFrame H key 1]) (streamOf (sgFrame H key 2) r.msg) = some 1 := by
  have hk : (sgStart key).secretKey = some key := rfl
  have f1 : FreshStamp (sgStart key) (sgFrame H key 1) (0, 1, 1) := by
    change (0 : Nat) ≤ _; omega
  obtain ⟨m1, d1, g1, s1, t1⟩ := sg_genuine hH key (sgStart key) 1 f1
  have hmark : markOf (decodeAllS H (sgStart key) [sgFrame H key 1]) (0, 1, 1) = some 1 := by
    change markOf (decodeS H (sgStart key) (sgFrame H key 1)).1 _ = _
    unfold markOf
    rw [(stateS hk _).2.2.1, d1]
    simp only
    rw [s1, t1, if_pos ⟨g1.1, rfl, by change (0 : Nat) ≤ _; omega⟩]
    rfl
  have hk1 : (decodeAllS H (sgStart key) [sgFrame H key 1]).secretKey = some key := (stateS hk _).1
  have f2 : FreshStamp (decodeAllS H (sgStart key) [sgFrame H key 1]) (sgFrame H key 2) (0, 1, 1) := by
    unfold FreshStamp
    rw [hmark]
    have hl : ((H (key ++ sgBody 2 0)).take 6).length = 6 := by
      rw [List.length_take]; have := hH (key ++ sgBody 2 0); omega
    obtain ⟨_, _, _, _, _, _, h6⟩ := sg_decode 2 0 _ hl
    unfold sgFrame
    simp only [h6]
    decide
  obtain ⟨m2, d2, g2, s2, t2⟩ := sg_genuine hH key _ 2 f2
  refine ⟨_, (stepS hk1 d2).1 g2, rfl, ?_⟩
  simp only
  rw [s2, hmark]

/-- C75: "a signed frame is accepted at most once" fails, for every key and every hash with at least six bytes: there is a
history after which a genuine frame is accepted twice in a row. -/
theorem c75_replay_false (H : List Byte → List Byte) (hH : ∀ x, 6 ≤ (H x).length) (key : List Byte) :
    ¬ ∀ (gs : List (List Byte)) (f : List Byte) (r : SignedMsg),
      (decodeS H (decodeAllS H (sgStart key) gs) f).2 = .ok r → r.signed = true →
      ¬ Returns (decodeS H (decodeAllS H (sgStart key) (gs ++ [f])) f).2 := by
  intro h
  obtain ⟨r, h1, h2, h3⟩ := sg_history hH key
  refine h _ _ r h1 h2 ⟨r, ?_⟩
  exact c75_replay H key _ (stateS (show (sgStart key).secretKey = some key from rfl) _).1 _ r h1 h2
    (fun hn => by have := h3.symm.trans hn; cases this) []

/-- A forged frame with the largest timestamp and an arbitrary signature meets the hypotheses of `c75_forged_frame`, and the
genuine frames of the stream are then refused. -/
example (H : List Byte → List Byte) (hH : ∀ x, 6 ≤ (H x).length) (key : List Byte) (t : Byte) :
    Raises (decodeS H (decodeAllS H (sgStart key) [sgBody 255 255 ++ [1, 2, 3, 4, 5, 6]]) (sgFrame H key t)).2 .mavError := by
  obtain ⟨m, h1, h2, h3, h4, h5, h6⟩ := sg_decode 255 255 [1, 2, 3, 4, 5, 6] rfl
  obtain ⟨mg, d, _, st, _⟩ := sg_genuine hH key (sgStart key) t (by change (0 : Nat) ≤ _; omega)
  have hst : streamOf (sgBody 255 255 ++ [1, 2, 3, 4, 5, 6]) m = (0, 1, 1) := by unfold streamOf; rw [h3, h4, h5]
  exact c75_forged_frame H key (sgStart key) rfl (show 0 < 2 ^ 48 by decide) rfl _ m h1 (by unfold Flagged; rw [h2]) (by rw [hst]; rfl)
    (by rw [h6]; decide) [] _ mg d (by rw [st, hst])

/-! ### The sender -/

theorem unpack_u64 (ts : Nat) (h2 : ts < 2 ^ 64) : unpackScalar .u64 (leBytes 8 ts) = .int ts := by
      simp only [unpackScalar, CType.isSInt, Bool.false_eq_true, false_and, if_false, leNat_leBytes]
      rw [Nat.mod_eq_of_lt (show ts < 256 ^ 8 by rw [show (256 : Nat) ^ 8 = 2 ^ 64 by decide]; exact h2)]

theorem pack_u64 (ts : Nat) (h2 : ts < 2 ^ 64) : packScalar .u64 (.int ts) = .ok (leBytes 8 ts) := by
  rw [← unpack_u64 ts h2]
  exact packScalar_unpackScalar (leBytes_length 8 ts)

theorem pack_u8 (link : Nat) (h1 : link < 256) : packScalar .u8 (.int link) = .ok [BitVec.ofNat 8 link] := by
    simp only [packScalar, CType.isUInt, if_true]
    rw [if_pos (by simp only [CType.size]; omega)]
    simp [CType.size, leBytes]

theorem structPack_single {it : FmtItem} {v : Val} {b : List Byte} (h : packItem it v = .ok b) :
    structPack [it] [v] = .ok b := by
  simp [structPack, h, bind, Except.bind]

theorem packItem_scalar (t : CType) (v : Val) : packItem (.scalar t) v = packScalar t v := rfl

theorem structPack_stamp (link ts : Nat) (h1 : link < 256) (h2 : ts < 2 ^ 64) :
    structPack [.scalar .u8, .scalar .u64] [.int link, .int ts] = .ok (BitVec.ofNat 8 link :: leBytes 8 ts) := by
  have e1 : structPack [.scalar .u8] [.int link] = .ok [BitVec.ofNat 8 link] :=
    structPack_single ((packItem_scalar _ _).trans (pack_u8 link h1))
  have e2 : structPack [.scalar .u64] [.int ts] = .ok (leBytes 8 ts) :=
    structPack_single ((packItem_scalar _ _).trans (pack_u64 ts h2))
  have := structPack_append e1 e2
  simp only [List.singleton_append] at this
  exact this

/-- C75: a signed outgoing message is the unsigned frame followed by 13 bytes carrying the link id, the timestamp and the
matching signature; the sender's timestamp goes up by one. -/
theorem c75_sender (H : List Byte → List Byte) (hH : ∀ x, 6 ≤ (H x).length) (key : List Byte) (s : Signing)
    (hk : s.secretKey = some key) (hout : s.signOutgoing = true) (link : Nat) (hlink : s.linkId = link) (hl : link ≤ 255)
    (hts : s.timestamp < 2 ^ 48) (m : MsgClass) (hm : m ∈ mavlinkMap) (fields : List FieldVal) (hw : WellTyped m fields)
    (seq sys cmp : Nat) (h2 : seq ≤ 255) (h3 : sys ≤ 255) (h4 : cmp ≤ 255) :
    ∃ frame tail, packMsg m fields seq sys cmp = .ok frame ∧ tail.length = 13 ∧
      packMsgS H s m fields seq sys cmp = ({ s with timestamp := s.timestamp + 1 }, .ok (frame ++ tail)) ∧
      linkOf (frame ++ tail) = link ∧ stampOf (frame ++ tail) = s.timestamp ∧ SigMatches H key (frame ++ tail) := by
  obtain ⟨p, fmt, _, _, _, h256, _, hpack⟩ := packMsg_ok hm hw (seq := seq) (sys := sys) (cmp := cmp)
    (by omega) (by omega) (by omega)
  generalize hfr : (([254, BitVec.ofNat 8 p.length, BitVec.ofNat 8 seq, BitVec.ofNat 8 sys, BitVec.ofNat 8 cmp,
          BitVec.ofNat 8 m.id] ++ p) ++ leBytes 2 (x25 (([BitVec.ofNat 8 p.length, BitVec.ofNat 8 seq,
          BitVec.ofNat 8 sys, BitVec.ofNat 8 cmp, BitVec.ofNat 8 m.id] ++ p) ++ [BitVec.ofNat 8 m.crcExtra])).toNat) = frame
    at hpack
  have hsp := structPack_stamp link s.timestamp (by omega) (by omega)
  have h7 : (BitVec.ofNat 8 link :: leBytes 8 s.timestamp).take 7 = BitVec.ofNat 8 link :: leBytes 6 s.timestamp := by
    simp [leBytes]
  have hl6 : (leBytes 6 s.timestamp).length = 6 := leBytes_length _ _
  generalize hd : (H (key ++ (frame ++ BitVec.ofNat 8 link :: leBytes 6 s.timestamp))).take 6 = sig
  have hsl : sig.length = 6 := by
    rw [← hd, List.length_take]
    have := hH (key ++ (frame ++ BitVec.ofNat 8 link :: leBytes 6 s.timestamp))
    omega
  have hlen : (frame ++ (BitVec.ofNat 8 link :: leBytes 6 s.timestamp ++ sig)).length = frame.length + 13 := by
    simp [hl6, hsl]
  refine ⟨frame, BitVec.ofNat 8 link :: leBytes 6 s.timestamp ++ sig, hpack, by simp [hl6, hsl], ?_, ?_, ?_, ?_⟩
  · unfold packMsgS signPacket
    rw [hpack]
    simp only [hout, if_true, hlink, hsp, hk, h7, hd]
    simp
  · unfold linkOf
    rw [hlen, show frame.length + 13 - 13 = frame.length by omega]
    simp
    omega
  · unfold stampOf
    rw [hlen, show frame.length + 13 - 6 = frame.length + 7 by omega, show frame.length + 13 - 12 = frame.length + 1 by omega]
    have : (frame ++ (BitVec.ofNat 8 link :: leBytes 6 s.timestamp ++ sig)).take (frame.length + 7) =
        frame ++ (BitVec.ofNat 8 link :: leBytes 6 s.timestamp) := by
      rw [List.take_length_add_append, List.take_left' (by simp [hl6])]
    rw [this]
    have : (frame ++ (BitVec.ofNat 8 link :: leBytes 6 s.timestamp)).drop (frame.length + 1) = leBytes 6 s.timestamp := by
      rw [List.drop_length_add_append]; rfl
    rw [this, leNat_leBytes]
    omega
  · unfold SigMatches
    rw [hlen, show frame.length + 13 - 6 = frame.length + 7 by omega]
    have e1 : frame ++ (BitVec.ofNat 8 link :: leBytes 6 s.timestamp ++ sig) =
        (frame ++ BitVec.ofNat 8 link :: leBytes 6 s.timestamp) ++ sig := by simp
    have e2 : (frame ++ BitVec.ofNat 8 link :: leBytes 6 s.timestamp).length = frame.length + 7 := by simp [hl6]
    rw [e1, List.drop_left' e2, List.take_left' e2, hd]

/-- C75: but no receiver of this dialect can read it: the version-1 header has no room for the flag, so the 13 bytes make the
length wrong, and `decode` raises MAVError whatever the receiver's settings. -/
theorem c75_sender_unreadable (H : List Byte → List Byte) (s : Signing) (hout : s.signOutgoing = true) (m : MsgClass)
    (hm : m ∈ mavlinkMap) (fields : List FieldVal) (hw : WellTyped m fields)
    (seq sys cmp : Nat) (h2 : seq ≤ 255) (h3 : sys ≤ 255) (h4 : cmp ≤ 255) (buf : List Byte)
    (hp : (packMsgS H s m fields seq sys cmp).2 = .ok buf) (receiver : Signing) :
    Raises (decodeS H receiver buf).2 .mavError := by
  obtain ⟨p, fmt, _, _, _, h256, _, hpack⟩ := packMsg_ok hm hw (seq := seq) (sys := sys) (cmp := cmp)
    (by omega) (by omega) (by omega)
  unfold packMsgS at hp
  rw [hpack] at hp
  simp only [hout, if_true] at hp
  unfold signPacket at hp
  cases hsp : structPack [.scalar .u8, .scalar .u64] [.int s.linkId, .int s.timestamp] with
  | error e => rw [hsp] at hp; cases hp
  | ok bs =>
    rw [hsp] at hp
    simp only at hp
    have hbs : (bs.take 7).length = 7 := by
      have := structPack_length hsp
      rw [List.length_take, this]
      decide
    cases hk : s.secretKey with
    | none => rw [hk] at hp; cases hp
    | some key =>
      rw [hk] at hp
      simp only at hp
      cases hp
      generalize x25 (([BitVec.ofNat 8 p.length, BitVec.ofNat 8 seq, BitVec.ofNat 8 sys, BitVec.ofNat 8 cmp,
        BitVec.ofNat 8 m.id] ++ p) ++ [BitVec.ofNat 8 m.crcExtra]) = X
      generalize (H _).take 6 = sig
      refine c75_refused H receiver _ (by simp) ?_
      intro hret
      have hret2 : Returns (decode (254 :: BitVec.ofNat 8 p.length :: BitVec.ofNat 8 seq :: BitVec.ofNat 8 sys ::
          BitVec.ofNat 8 cmp :: BitVec.ofNat 8 m.id :: (p ++ leBytes 2 X.toNat ++ bs.take 7 ++ sig))) := by
        rw [decodeS_eq] at hret
        simp only [List.cons_append, List.nil_append, List.append_assoc] at hret ⊢
        cases hd : decode (254 :: BitVec.ofNat 8 p.length :: BitVec.ofNat 8 seq :: BitVec.ofNat 8 sys ::
          BitVec.ofNat 8 cmp :: BitVec.ofNat 8 m.id :: (p ++ (leBytes 2 X.toNat ++ (bs.take 7 ++ sig)))) with
        | error e => rw [hd] at hret; obtain ⟨_, h⟩ := hret; cases h
        | ok a => exact ⟨_, rfl⟩
      have := ((c13_accept_iff _ rfl).1 hret2).2.1
      simp only [List.getD_cons_succ, List.getD_cons_zero, List.length_cons, List.length_append, leBytes_length, hbs,
        BitVec.toNat_ofNat] at this
      omega

/-- A HEARTBEAT of the dialect, sent with signing on. -/
example : ∃ m ∈ mavlinkMap, ∃ fields, WellTyped m fields ∧ ∃ buf, (packMsgS (fun _ => List.replicate 32 7)
    { Signing.init with secretKey := some [1, 2], signOutgoing := true, linkId := 5, timestamp := 1000 } m fields 3 1 1).2 =
      .ok buf :=
  ⟨msg0, by decide, [.num (.int 1), .num (.int 2), .num (.int 3), .num (.int 4), .num (.int 5), .num (.int 3)],
    by decide, _, rfl⟩

end NR
