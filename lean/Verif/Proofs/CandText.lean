import Verif.Model.CandText
import Verif.Proofs.Text
import Verif.Proofs.Fmtp

namespace Str0m.Sdp
open Str0m.Text Str0m.StrId

/-! ### Specification -/

/-- A word: not empty, no white space -/
def Word (s : Str) : Prop := s ≠ [] ∧ ∀ c ∈ s, isWs c = false

/-- The text of an IP address is a word and is read back -/
def Env.IpOk (env : Env Ip) : Prop := ∀ ip, Word (env.ipShow ip) ∧ env.ipParse (env.ipShow ip) = some ip

/-- The fields have the widths of the Rust types (`u16`, `u32`), the free texts are words -/
structure CandOk (c : Cand Ip) : Prop where
  foundation : Word c.foundation
  component : c.component ≤ 65535
  prio : c.prio < 2 ^ 32
  port : c.port ≤ 65535
  rport : ∀ a ∈ c.raddr, a.2 ≤ 65535
  ufrag : ∀ u ∈ c.ufrag, Word u

/-! ### Words -/

theorem dec_word (n : Nat) : Word (dec n) := ⟨dec_ne_nil n, fun c hc => (dec_keyChar n c hc).2.2.1⟩

theorem words_last (w : Str) (h : Word w) : words w = [w] := by
  obtain ⟨hne, hw⟩ := h
  induction w with
  | nil => exact absurd rfl hne
  | cons c w ih =>
    have hc := hw c (by simp)
    cases w with
    | nil => simp [words, hc]
    | cons d w =>
      have hd := hw d (by simp)
      have := ih (by simp) (fun x hx => hw x (by simp [hx]))
      rw [words, hc]
      simp only [Bool.false_eq_true, if_false, hd, this]

theorem words_cons (w r : Str) (h : Word w) : words (w ++ ' ' :: r) = w :: words r := by
  obtain ⟨hne, hw⟩ := h
  have hsp : isWs ' ' = true := by decide
  induction w with
  | nil => exact absurd rfl hne
  | cons c w ih =>
    have hc := hw c (by simp)
    cases w with
    | nil =>
      have h2 : words (' ' :: r) = words r := by rw [words.eq_def]; simp [hsp]
      rw [List.cons_append, List.nil_append, words.eq_def]
      simp only [hc, Bool.false_eq_true, if_false, hsp, if_true, h2]
    | cons d w =>
      have hd := hw d (by simp)
      have := ih (by simp) (fun x hx => hw x (by simp [hx]))
      rw [List.cons_append] at this
      rw [List.cons_append, List.cons_append, words, hc]
      simp only [Bool.false_eq_true, if_false, hd, this]

/-- Words with a space before each -/
def spaced (ws : List Str) : Str := (ws.map (fun w => ' ' :: w)).flatten

theorem words_spaced (w : Str) (ws : List Str) (h : ∀ x ∈ w :: ws, Word x) : words (w ++ spaced ws) = w :: ws := by
  induction ws generalizing w with
  | nil => simpa [spaced] using words_last w (h w (by simp))
  | cons x xs ih =>
    have : w ++ spaced (x :: xs) = w ++ ' ' :: (x ++ spaced xs) := by simp [spaced]
    rw [this, words_cons w _ (h w (by simp)), ih x (fun y hy => h y (by simp_all))]

def extWords (env : Env Ip) (c : Cand Ip) : List Str :=
  (match c.raddr with | some (ip, port) => [c!"raddr", env.ipShow ip, c!"rport", dec port] | none => []) ++
  (match c.tcptype with | some t => [c!"tcptype", t.show] | none => []) ++
  (match c.ufrag with | some u => [c!"ufrag", u] | none => [])

def candWords (env : Env Ip) (c : Cand Ip) : List Str :=
  [dec c.component, c.proto.show, dec c.prio, env.ipShow c.ip, dec c.port, c!"typ", c.kind.show] ++ extWords env c

theorem show_words (env : Env Ip) (c : Cand Ip) : c.show env = c!"candidate:" ++ (c.foundation ++ spaced (candWords env c)) := by
  have h1 : ∀ o : Option (Ip × Nat), showRaddr env o = spaced (match o with | some (ip, port) => [c!"raddr", env.ipShow ip, c!"rport", dec port] | none => []) := by
    intro o
    cases o with
    | none => rfl
    | some x => simp [showRaddr, spaced]
  have h2 : ∀ o : Option TcpType, showTcp o = spaced (match o with | some t => [c!"tcptype", t.show] | none => []) := by
    intro o
    cases o <;> simp [showTcp, spaced]
  have h3 : ∀ o : Option Str, showUfrag o = spaced (match o with | some t => [c!"ufrag", t] | none => []) := by
    intro o
    cases o <;> simp [showUfrag, spaced]
  have happ : ∀ a b, spaced (a ++ b) = spaced a ++ spaced b := by intro a b; simp [spaced]
  unfold Cand.show candWords extWords
  rw [h1, h2, h3, happ, happ, happ]
  simp [spaced]

theorem net_word (n : Net) : Word n.show := by unfold Word; cases n <;> decide
theorem tcp_word (n : TcpType) : Word n.show := by unfold Word; cases n <;> decide
theorem kind_word (n : CandKind) : Word n.show := by unfold Word; cases n <;> decide
theorem net_parse (n : Net) : Net.parse n.show = some n := by cases n <;> decide
theorem tcp_parse (n : TcpType) : TcpType.parse n.show = some n := by cases n <;> decide
theorem kind_parse (n : CandKind) : CandKind.parse n.show = some n := by cases n <;> decide

theorem candWords_word (env : Env Ip) (henv : env.IpOk) (c : Cand Ip) (h : CandOk c) : ∀ w ∈ candWords env c, Word w := by
  intro w hw
  unfold candWords extWords at hw
  simp only [List.mem_append, List.mem_cons, List.not_mem_nil, or_false] at hw
  rcases hw with (rfl | rfl | rfl | rfl | rfl | rfl | rfl) | (hw | hw) | hw
  · exact dec_word _
  · exact net_word _
  · exact dec_word _
  · exact (henv _).1
  · exact dec_word _
  · exact ⟨by simp, by decide⟩
  · exact kind_word _
  · cases hr : c.raddr with
    | none => simp [hr] at hw
    | some a =>
      simp only [hr, List.mem_cons, List.not_mem_nil, or_false] at hw
      rcases hw with rfl | rfl | rfl | rfl
      · exact ⟨by simp, by decide⟩
      · exact (henv _).1
      · exact ⟨by simp, by decide⟩
      · exact dec_word _
  · cases hr : c.tcptype with
    | none => simp [hr] at hw
    | some a =>
      simp only [hr, List.mem_cons, List.not_mem_nil, or_false] at hw
      rcases hw with rfl | rfl
      · exact ⟨by simp, by decide⟩
      · exact tcp_word _
  · cases hr : c.ufrag with
    | none => simp [hr] at hw
    | some a =>
      simp only [hr, List.mem_cons, List.not_mem_nil, or_false] at hw
      rcases hw with rfl | rfl
      · exact ⟨by simp, by decide⟩
      · exact h.ufrag _ hr

theorem extGo_words (env : Env Ip) (henv : env.IpOk) (c : Cand Ip) (h : CandOk c) :
    ∃ e, extGo env (extWords env c) {} = some e ∧ e.addr = c.raddr ∧ e.tcptype = c.tcptype ∧ e.ufrag = c.ufrag := by
  unfold extWords
  have hp := h.rport
  rcases hr : c.raddr with _ | ⟨ip, port⟩ <;> rcases ht : c.tcptype with _ | t <;> rcases hu : c.ufrag with _ | u <;>
    simp only [List.nil_append, List.append_nil, List.cons_append]
  all_goals
    try (have hp := h.rport (ip, port) (by simp [hr]))
    simp [extGo, (henv _).2, tcp_parse, Exts.addr]
    try simp [parseNat_dec 65535 port hp]

theorem stripPrefix_append (p s : Str) : stripPrefix p (p ++ s) = some s := by
  induction p with
  | nil => cases s <;> rfl
  | cons c p ih => simpa [stripPrefix] using ih

/-! ### parser.rs -/

/-- The input ends or goes on with a line end -/
def EndLine (r : Str) : Prop := r = [] ∨ ∃ c r', r = c :: r' ∧ (c = '\r' ∨ c = '\n')

theorem EndLine.nl (r : Str) : EndLine ('\r' :: r) := Or.inr ⟨_, _, rfl, Or.inl rfl⟩

theorem notSp_stop_sp (r : Str) : Stops (fun c => c != ' ' && c != '\r' && c != '\n') (' ' :: r) := Stops.cons (by decide)

theorem EndLine.notSp {r : Str} (h : EndLine r) : Stops (fun c => c != ' ' && c != '\r' && c != '\n') r := by
  rcases h with rfl | ⟨c, r', rfl, rfl | rfl⟩
  · exact Stops.nil _
  · exact Stops.cons (by decide)
  · exact Stops.cons (by decide)

theorem EndLine.anyValue {r : Str} (h : EndLine r) : Stops (fun c => c != '\r' && c != '\n') r := by
  rcases h with rfl | ⟨c, r', rfl, rfl | rfl⟩
  · exact Stops.nil _
  · exact Stops.cons (by decide)
  · exact Stops.cons (by decide)

/-- A token: not empty, no space or line end -/
def Tok (s : Str) : Prop := s ≠ [] ∧ ∀ c ∈ s, c ≠ ' ' ∧ c ≠ '\r' ∧ c ≠ '\n'

theorem Word.tok {s : Str} (h : Word s) : Tok s := by
  refine ⟨h.1, fun c hc => ?_⟩
  have := h.2 c hc
  refine ⟨?_, ?_, ?_⟩ <;> rintro rfl <;> revert this <;> decide

theorem Tok.chars {s : Str} (h : Tok s) : ∀ c ∈ s, (c != ' ' && c != '\r' && c != '\n') = true := by
  intro c hc
  obtain ⟨a, b, d⟩ := h.2 c hc
  simp [a, b, d]

theorem notSp_sp {s : Str} (h : Tok s) (r : Str) : Reads notSp (s ++ ' ' :: r) s (' ' :: r) := Reads.many1c h.1 h.chars (notSp_stop_sp r)

theorem notSp_end {s : Str} (h : Tok s) {r : Str} (hr : EndLine r) : Reads notSp (s ++ r) s r := Reads.many1c h.1 h.chars hr.notSp

/-- After a token comes a space or the end of the line -/
def Sep (r : Str) : Prop := EndLine r ∨ ∃ r', r = ' ' :: r'

theorem notSp_sep {s : Str} (h : Tok s) {r : Str} (hr : Sep r) : Reads notSp (s ++ r) s r := by
  rcases hr with hr | ⟨r', rfl⟩
  · exact notSp_end h hr
  · exact notSp_sp h r'

theorem dec_tok (n : Nat) : Tok (dec n) := (dec_word n).tok

theorem numTok_sep {max n : Nat} (h : n ≤ max) {r : Str} (hr : Sep r) : Reads (numTok max) (dec n ++ r) n r :=
  (notSp_sep (dec_tok n) hr).andThen (parseNat_dec max n h)

theorem Sep.sp (r : Str) : Sep (' ' :: r) := Or.inr ⟨r, rfl⟩

/-- None of the optional parts of a candidate begins here -/
theorem attempt_string_fails (k : Str) (r : Str) (hk : ∃ c k', k = ' ' :: c :: k' ∧ ∀ r', r ≠ ' ' :: c :: r') : Fails (attempt (string k)) r := by
  obtain ⟨c, k', rfl, h⟩ := hk
  refine (Errs.string ?_).attempt
  rintro ⟨t, rfl⟩
  exact h (k' ++ t) (by simp)

theorem EndLine.ne_sp {r : Str} (h : EndLine r) (r' : Str) : r ≠ ' ' :: r' := by
  rcases h with rfl | ⟨c, x, rfl, rfl | rfl⟩ <;> simp

theorem ufrag_reads (u : Option Str) (h : ∀ x ∈ u, Word x) (r : Str) (hr : EndLine r) :
    Reads (opt (candExt c!" ufrag ")) (showUfrag u ++ r) u r := by
  cases u with
  | none => exact Reads.optNone (Fails.then (attempt_string_fails _ _ ⟨'u', _, rfl, fun r' => hr.ne_sp _⟩))
  | some u =>
    refine Reads.optSome ?_
    rw [showUfrag, List.append_assoc]
    exact (Reads.string _ _).attempt.then (notSp_end (h u rfl).tok hr)

theorem tcp_reads (t : Option TcpType) (u : Option Str) (r : Str) (hr : EndLine r) :
    Reads (opt candTcp) (showTcp t ++ (showUfrag u ++ r)) t (showUfrag u ++ r) := by
  have hs : Sep (showUfrag u ++ r) := by
    cases u with
    | none => exact Or.inl hr
    | some u => exact Or.inr ⟨_, rfl⟩
  cases t with
  | none =>
    refine Reads.optNone (Fails.then (attempt_string_fails _ _ ⟨'t', _, rfl, ?_⟩))
    cases u with
    | none => exact fun r' => hr.ne_sp _
    | some u => intro r' hh; simp [showTcp, showUfrag] at hh
  | some t =>
    refine Reads.optSome ?_
    rw [showTcp, List.append_assoc]
    exact (Reads.string _ _).attempt.then ((notSp_sep (tcp_word t).tok hs).andThen (tcp_parse t))

theorem raddr_reads (env : Env Ip) (henv : env.IpOk) (a : Option (Ip × Nat)) (h : ∀ x ∈ a, x.2 ≤ 65535) (t : Option TcpType) (u : Option Str) (r : Str)
    (hr : EndLine r) : Reads (opt (candRaddr env)) (showRaddr env a ++ (showTcp t ++ (showUfrag u ++ r))) a (showTcp t ++ (showUfrag u ++ r)) := by
  have hs : Sep (showTcp t ++ (showUfrag u ++ r)) := by
    cases t with
    | none =>
      cases u with
      | none => exact Or.inl hr
      | some u => exact Or.inr ⟨_, rfl⟩
    | some t => exact Or.inr ⟨_, rfl⟩
  cases a with
  | none =>
    refine Reads.optNone (Fails.then (attempt_string_fails _ _ ⟨'r', _, rfl, ?_⟩))
    cases t with
    | none =>
      cases u with
      | none => exact fun r' => hr.ne_sp _
      | some u => intro r' hh; simp [showRaddr, showTcp, showUfrag] at hh
    | some t => intro r' hh; simp [showRaddr, showTcp] at hh
  | some a =>
    obtain ⟨ip, port⟩ := a
    refine Reads.optSome ?_
    rw [showRaddr, List.append_assoc, List.append_assoc, List.append_assoc]
    refine (Reads.string _ _).attempt.then (((notSp_sep (henv ip).1.tok (r := c!" rport " ++ _) (Sep.sp _)).andThen (henv ip).2).then ?_)
    exact (Reads.string _ _).then ((numTok_sep (h _ rfl) hs).then (Reads.ret _ _))

theorem kind_reads (k : CandKind) (r : Str) : Reads candKind (k.show ++ r) k r := by
  cases k with
  | host => exact Reads.head _ ((Reads.string _ _).pmap _)
  | prflx => exact Reads.tail rfl (Reads.head _ ((Reads.string _ _).pmap _))
  | srflx => exact Reads.tail rfl (Reads.tail rfl (Reads.head _ ((Reads.string _ _).pmap _)))
  | relay => exact Reads.tail rfl (Reads.tail rfl (Reads.tail rfl (Reads.head _ ((Reads.string _ _).pmap _))))

theorem ext_none (k : Str) (c : Char) (k' : Str) (hk : k = ' ' :: c :: k') (u : Option Str) (hc : c ≠ 'u') (r : Str) (hr : EndLine r) :
    Reads (opt (candExt k)) (showUfrag u ++ r) none (showUfrag u ++ r) := by
  refine Reads.optNone (Fails.then (attempt_string_fails _ _ ⟨c, k', hk, ?_⟩))
  cases u with
  | none => exact fun r' => hr.ne_sp _
  | some u =>
    intro r' hh
    simp only [showUfrag, List.cons_append, List.nil_append, List.cons.injEq, true_and] at hh
    exact hc hh.1.symm

/-- The printed candidate is read by the parser of the SDP -/
theorem candidateP_reads (env : Env Ip) (henv : env.IpOk) (c : Cand Ip) (h : CandOk c) (r : Str) (hr : EndLine r) :
    Reads (candidateP env) (c.show env ++ r) c r := by
  unfold Cand.show
  simp only [List.append_assoc]
  have sp : ∀ x : Str, Sep (c!" " ++ x) := fun x => Sep.sp _
  refine (Reads.string _ _).then ((notSp_sep h.foundation.tok (sp _)).then ((Reads.token ' ' _).then ((numTok_sep h.component (sp _)).then
    ((Reads.token ' ' _).then (((notSp_sep (net_word _).tok (sp _)).andThen (net_parse _)).then ((Reads.token ' ' _).then
    ((numTok_sep (Nat.le_pred_of_lt h.prio) (sp _)).then ((Reads.token ' ' _).then (((notSp_sep (henv _).1.tok (sp _)).andThen (henv _).2).then
    ((Reads.token ' ' _).then ((numTok_sep h.port (r := c!" typ " ++ _) (Sep.sp _)).then ((Reads.string _ _).then ((kind_reads _ _).then
    ((raddr_reads env henv c.raddr h.rport c.tcptype c.ufrag r hr).then ((tcp_reads c.tcptype c.ufrag r hr).then
    ((ext_none _ 'g' _ rfl c.ufrag (by decide) r hr).then ((ext_none _ 'n' _ rfl c.ufrag (by decide) r hr).then
    ((ufrag_reads c.ufrag h.ufrag r hr).then ?_))))))))))))))))))
  refine (Reads.optNone (Fails.then (attempt_string_fails _ _ ⟨'n', _, rfl, fun r' => hr.ne_sp _⟩))).then ?_
  exact Reads.ret _ _

end Str0m.Sdp
