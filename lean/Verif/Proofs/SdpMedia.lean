import Verif.Proofs.Sdp

namespace Str0m.Sdp
open Str0m.Text Str0m.StrId Str0m.Profiles Str0m.Pts
open Str0m.Negotiate (Dir Setup)

/-! ### The alternatives of a media attribute, on a line that begins with `l` -/

theorem dir_errs {i : Str} (h : ∀ k ∈ [c!"recvonly", c!"sendrecv", c!"sendonly", c!"inactive"], Errs (attrFlag k) i) :
    Fails (attempt (directionP (Ip := Ip))) i := by
  refine (Fails.errs ?_).attempt
  exact Fails.choice_cons ((h _ (by simp)).pmap _).attempt (Fails.choice_cons ((h _ (by simp)).pmap _).attempt
    (Fails.choice_cons ((h _ (by simp)).pmap _).attempt (Fails.choice_cons ((h _ (by simp)).pmap _).attempt (Fails.choice_nil _))))

theorem noDir {l i : Str} (h : (clash c!"a=recvonly" l && clash c!"a=sendrecv" l && clash c!"a=sendonly" l && clash c!"a=inactive" l) = true) :
    Fails (attempt (directionP (Ip := Ip))) (l ++ i) := by
  simp only [Bool.and_eq_true] at h
  obtain ⟨⟨⟨h1, h2⟩, h3⟩, h4⟩ := h
  refine dir_errs ?_
  intro k hk
  simp only [List.mem_cons, List.not_mem_nil, or_false] at hk
  rcases hk with rfl | rfl | rfl | rfl
  · exact attrFlag_errs (clash_prefix h1)
  · exact attrFlag_errs (clash_prefix h2)
  · exact attrFlag_errs (clash_prefix h3)
  · exact attrFlag_errs (clash_prefix h4)

theorem fmtp_errs (env : Env Ip) {i : Str} (h : ∀ (val : P (MediaAttr Ip)), Errs (attrLine c!"fmtp" val) i) : Fails (attempt (fmtpP env)) i := by
  refine (Fails.errs ?_).attempt
  exact Fails.choice_cons (h _).attempt (Fails.choice_cons (h _).attempt (Fails.choice_nil _))

theorem noFmtp (env : Env Ip) {l i : Str} (h : clash c!"a=fmtp:" l = true) : Fails (attempt (fmtpP env)) (l ++ i) :=
  fmtp_errs env (fun _ => attrLine_errs (k := c!"fmtp") (clash_prefix h))

theorem skip1 (Ip : Type) (l i : Str) :
    (clash c!"a=ice-ufrag:" l = true → Fails (attempt (pmap (MediaAttr.iceUfrag (Ip := Ip)) (attrLine c!"ice-ufrag" anyValue))) (l ++ i)) ∧
    (clash c!"a=ice-pwd:" l = true → Fails (attempt (pmap (MediaAttr.icePwd (Ip := Ip)) (attrLine c!"ice-pwd" anyValue))) (l ++ i)) ∧
    (clash c!"a=ice-options:" l = true → Fails (attempt (pmap (MediaAttr.iceOptions (Ip := Ip)) (attrLine c!"ice-options" anyValue))) (l ++ i)) ∧
    (clash c!"a=fingerprint:" l = true → Fails (attempt (pmap (MediaAttr.fingerprint (Ip := Ip)) fingerP)) (l ++ i)) ∧
    (clash c!"a=setup:" l = true → Fails (attempt (pmap (MediaAttr.setup (Ip := Ip)) setupP)) (l ++ i)) ∧
    (clash c!"a=mid:" l = true → Fails (attempt (pmap (fun m => MediaAttr.mid (Ip := Ip) (midOf m)) (attrLine c!"mid" anyValue))) (l ++ i)) ∧
    (clash c!"a=sctp-port:" l = true → Fails (attempt (pmap (MediaAttr.sctpPort (Ip := Ip)) (attrLine c!"sctp-port" (numTok 65535)))) (l ++ i)) ∧
    (clash c!"a=max-message-size:" l = true → Fails (attempt (pmap (MediaAttr.maxMessageSize (Ip := Ip)) (attrLine c!"max-message-size" (numTok (2^64 - 1))))) (l ++ i)) ∧
    (clash c!"a=sctp-init:" l = true → Fails (attempt (pmap (MediaAttr.sctpInit (Ip := Ip)) (attrLine c!"sctp-init" anyValue))) (l ++ i)) ∧
    (clash c!"a=extmap:" l = true → Fails (attempt (extMapP (Ip := Ip))) (l ++ i)) ∧
    ((clash c!"a=recvonly" l && clash c!"a=sendrecv" l && clash c!"a=sendonly" l && clash c!"a=inactive" l) = true → Fails (attempt (directionP (Ip := Ip))) (l ++ i)) ∧
    (clash c!"a=msid:" l = true → Fails (attempt (msidP (Ip := Ip))) (l ++ i)) ∧
    (clash c!"a=rtcp:" l = true → Fails (attempt (pmap (MediaAttr.rtcp (Ip := Ip)) (attrLine c!"rtcp" anyValue))) (l ++ i)) :=
  ⟨fun h => noKeyM (k := c!"ice-ufrag") h,
   fun h => noKeyM (k := c!"ice-pwd") h,
   fun h => noKeyM (k := c!"ice-options") h,
   fun h => noKeyM (k := c!"fingerprint") h,
   fun h => noKeyM (k := c!"setup") h,
   fun h => noKeyM (k := c!"mid") h,
   fun h => noKeyM (k := c!"sctp-port") h,
   fun h => noKeyM (k := c!"max-message-size") h,
   fun h => noKeyM (k := c!"sctp-init") h,
   fun h => noKey (k := c!"extmap") h,
   fun h => noDir h,
   fun h => noKey (k := c!"msid") h,
   fun h => noKeyM (k := c!"rtcp") h⟩

theorem skip2 (env : Env Ip) (l i : Str) :
    (clash c!"a=rtcp-mux" l = true → Fails (attempt (pmap (fun _ => MediaAttr.rtcpMux (Ip := Ip)) (attrFlag c!"rtcp-mux"))) (l ++ i)) ∧
    (clash c!"a=rtcp-mux-only" l = true → Fails (attempt (pmap (fun _ => MediaAttr.rtcpMuxOnly (Ip := Ip)) (attrFlag c!"rtcp-mux-only"))) (l ++ i)) ∧
    (clash c!"a=rtcp-rsize" l = true → Fails (attempt (pmap (fun _ => MediaAttr.rtcpRsize (Ip := Ip)) (attrFlag c!"rtcp-rsize"))) (l ++ i)) ∧
    (clash c!"a=candidate:" l = true → Fails (attempt (pmap (MediaAttr.candidate (Ip := Ip)) (candidateAttr env))) (l ++ i)) ∧
    (clash c!"a=end-of-candidates" l = true → Fails (attempt (pmap (fun _ => MediaAttr.endOfCandidates (Ip := Ip)) (attrFlag c!"end-of-candidates"))) (l ++ i)) ∧
    (clash c!"a=rtpmap:" l = true → Fails (attempt (rtpMapP (Ip := Ip))) (l ++ i)) ∧
    (clash c!"a=rtcp-fb:" l = true → Fails (attempt (rtcpFbP (Ip := Ip))) (l ++ i)) ∧
    (clash c!"a=fmtp:" l = true → Fails (attempt (fmtpP env)) (l ++ i)) ∧
    (clash c!"a=rid:" l = true → Fails (attempt (ridP env)) (l ++ i)) ∧
    (clash c!"a=simulcast:" l = true → Fails (attempt (simulcastP env)) (l ++ i)) ∧
    (clash c!"a=ssrc-group:" l = true → Fails (attempt (ssrcGroupP (Ip := Ip))) (l ++ i)) ∧
    (clash c!"a=ssrc:" l = true → Fails (attempt (ssrcP (Ip := Ip))) (l ++ i)) :=
  ⟨fun h => noFlag (k := c!"rtcp-mux") h,
   fun h => noFlag (k := c!"rtcp-mux-only") h,
   fun h => noFlag (k := c!"rtcp-rsize") h,
   fun h => noCand h,
   fun h => noFlag (k := c!"end-of-candidates") h,
   fun h => noKey (k := c!"rtpmap") h,
   fun h => noKey (k := c!"rtcp-fb") h,
   fun h => noFmtp env h,
   fun h => noKey (k := c!"rid") h,
   fun h => noKey (k := c!"simulcast") h,
   fun h => noKey (k := c!"ssrc-group") h,
   fun h => noKey (k := c!"ssrc") h⟩

def keys1 : List Str := [c!"a=ice-ufrag:", c!"a=ice-pwd:", c!"a=ice-options:", c!"a=fingerprint:", c!"a=setup:", c!"a=mid:", c!"a=sctp-port:", c!"a=max-message-size:", c!"a=sctp-init:", c!"a=extmap:", c!"a=msid:", c!"a=rtcp:", c!"a=recvonly", c!"a=sendrecv", c!"a=sendonly", c!"a=inactive"]

theorem first_fails (l i : Str) (h : keys1.all (fun k => clash k l) = true) : Fails (attempt (choice (mediaAlts1 (Ip := Ip)))) (l ++ i) := by
  simp only [keys1, List.all_cons, List.all_nil, Bool.and_eq_true, and_true] at h
  obtain ⟨k0, k1, k2, k3, k4, k5, k6, k7, k8, k9, k10, k11, k12, k13, k14, k15⟩ := h
  obtain ⟨m0, m1, m2, m3, m4, m5, m6, m7, m8, m9, m10, m11, m12⟩ := skip1 Ip l i
  refine (Fails.errs ?_).attempt
  refine Fails.choice_cons (m0 k0) (Fails.choice_cons (m1 k1) (Fails.choice_cons (m2 k2) (Fails.choice_cons (m3 k3) (Fails.choice_cons (m4 k4) (Fails.choice_cons (m5 k5) (Fails.choice_cons (m6 k6) (Fails.choice_cons (m7 k7) (Fails.choice_cons (m8 k8) (Fails.choice_cons (m9 k9) (Fails.choice_cons (m10 (by simp [k12, k13, k14, k15])) (Fails.choice_cons (m11 k10) (Fails.choice_cons (m12 k11) (Fails.choice_nil _)))))))))))))

/-! ### Pieces -/

theorem pt_reads {pt : Nat} (h : pt ≤ 127) (r : Str) : Reads ptP (dec pt ++ ' ' :: r) pt (' ' :: r) :=
  (notSp_sp (dec_tok pt) r).andThen (by rw [parseNat_dec 255 pt (by omega)]; simp [Option.filter, h])

theorem num_end {max n : Nat} (h : n ≤ max) (r : Str) : Reads (numTok max) (dec n ++ (nl ++ r)) n (nl ++ r) := numTok_sep h (Or.inl (endl r))

theorem ofUri_toUri (e : Ext) (h : ∀ s, e = .uri s → ∀ k : KnownExt, k.uri ≠ s) : Ext.ofUri e.toUri = e := by
  cases e with
  | known k =>
    have : KnownExt.all.find? (fun x => x.uri == k.uri) = some k := by cases k <;> decide +kernel
    simp [Ext.ofUri, Ext.toUri, this]
  | uri s =>
    have : KnownExt.all.find? (fun x => x.uri == s) = none := by
      rw [List.find?_eq_none]
      intro k _
      simpa using h s rfl k
    simp [Ext.ofUri, Ext.toUri, this]

theorem extMap_reads (id : Nat) (e : Ext) (h : id ≤ 255 ∧ Tok e.toUri ∧ ∀ s, e = .uri s → ∀ k : KnownExt, k.uri ≠ s) (r : Str) :
    Reads (extMapP (Ip := Ip)) ('a' :: '=' :: (c!"extmap" ++ (':' :: (dec id ++ (c!" " ++ (e.toUri ++ (nl ++ r))))))) (.extMap id e) r := by
  refine attrLine_reads ?_
  have h1 : Reads (many1c (fun c => c != '/' && c != ' ')) (dec id ++ (c!" " ++ (e.toUri ++ (nl ++ r)))) (dec id) (c!" " ++ (e.toUri ++ (nl ++ r))) :=
    Reads.many1c (dec_ne_nil id) (by
      intro c hc
      have h1 := (dec_isDec id c hc).ne '/' (by decide)
      have h2 := (dec_isDec id c hc).ne ' ' (by decide)
      simp [h1, h2]) (Stops.cons (by decide))
  refine (h1.andThen (parseNat_dec 255 id h.1)).then ?_
  refine (Reads.optNone (Fails.then (Fails.token (Stops.cons (by decide))))).then ((Reads.token ' ' _).then ?_)
  refine (notSp_end h.2.1 (endl r)).then ((Reads.optNone (Fails.then (Fails.token (endl_stops (by decide) r)))).then ?_)
  have := Reads.ret (MediaAttr.extMap (Ip := Ip) id e) (nl ++ r)
  rw [← ofUri_toUri e h.2.2] at this
  rw [ofUri_toUri e h.2.2] at this ⊢
  exact this

theorem flag_skip {α : Type} {f : Unit → α} {k l r : Str} {i : Str} {v : α} {ps : List (P α)} (e : i = l ++ r) (h : clash (c!"a=" ++ k) l = true)
    (hr : Reads (choice ps) i v r') : Reads (choice (attempt (pmap f (attrFlag k)) :: ps)) i v r' := by
  subst e
  exact Reads.tail (((attrFlag_errs (k := k) (clash_prefix (l := l) h)).pmap _).attempt) hr

theorem dir_reads (d : Dir) (r : Str) : Reads (directionP (Ip := Ip)) ('a' :: '=' :: (showDir d ++ (nl ++ r))) (.dir d) r := by
  cases d with
  | recvOnly => exact Reads.head _ ((attrFlag_reads (k := c!"recvonly")).pmap _).attempt
  | sendRecv =>
    refine flag_skip (l := c!"a=sendrecv") rfl (by decide) ?_
    exact Reads.head _ ((attrFlag_reads (k := c!"sendrecv")).pmap _).attempt
  | sendOnly =>
    refine flag_skip (l := c!"a=sendonly") rfl (by decide) (flag_skip (l := c!"a=sendonly") rfl (by decide) ?_)
    exact Reads.head _ ((attrFlag_reads (k := c!"sendonly")).pmap _).attempt
  | inactive =>
    refine flag_skip (l := c!"a=inactive") rfl (by decide) (flag_skip (l := c!"a=inactive") rfl (by decide)
      (flag_skip (l := c!"a=inactive") rfl (by decide) ?_))
    exact Reads.head _ ((attrFlag_reads (k := c!"inactive")).pmap _).attempt

theorem msid_reads (s t : Str) (h : Tok s ∧ Val t) (r : Str) :
    Reads (msidP (Ip := Ip)) ('a' :: '=' :: (c!"msid" ++ (':' :: (s ++ (c!" " ++ (t ++ (nl ++ r))))))) (.msid s t) r := by
  refine attrLine_reads ((notSp_sep h.1 (Sep.sp _)).then ((Reads.token ' ' _).then ((anyValue_reads h.2 r).then (Reads.ret _ _))))

theorem codec_word (c : Codec) : showCodec c ≠ [] ∧ ∀ x ∈ showCodec c, (x != '/' && x != '\r' && x != '\n') = true := by
  cases c <;> decide
theorem codec_parse (c : Codec) (h : c ≠ .null) : codecOf (showCodec c) = c := by
  cases c <;> first | exact absurd rfl h | decide

theorem rate_chars (n : Nat) : ∀ c ∈ dec n, (c != '/' && c != '\r' && c != '\n') = true := by
  intro c hc
  have h1 := (dec_isDec n c hc).ne '/' (by decide)
  have h2 := (dec_isDec n c hc).ne '\r' (by decide)
  have h3 := (dec_isDec n c hc).ne '\n' (by decide)
  simp [h1, h2, h3]

theorem dec_val (n : Nat) : Val (dec n) := (dec_tok n).val

theorem channels_reads (o : Option Nat) (h : ∀ n ∈ o, n ≤ 255) (r : Str) :
    Reads (opt (thenP (token '/') fun _ => andThen anyValue (parseNat 255))) (showChannels o ++ (nl ++ r)) o (nl ++ r) := by
  cases o with
  | none => exact Reads.optNone (Fails.then (Fails.token (endl_stops (by decide) r)))
  | some n =>
    rw [showChannels, List.append_assoc]
    exact Reads.optSome ((Reads.token '/' _).then ((anyValue_reads (dec_val n) r).andThen (parseNat_dec 255 n (h n rfl))))

theorem channels_stops (o : Option Nat) (r : Str) : Stops (fun c => c != '/' && c != '\r' && c != '\n') (showChannels o ++ (nl ++ r)) := by
  cases o with
  | none => exact Stops.cons (by decide)
  | some n => exact Stops.cons (by decide)

theorem rtpMap_reads (pt : Nat) (m : RtpMap)
    (h : pt ≤ 127 ∧ m.codec ≠ .null ∧ 0 < m.clockRate ∧ m.clockRate < 2 ^ 32 ∧ ∀ n ∈ m.channels, n ≤ 255) (r : Str) :
    Reads (rtpMapP (Ip := Ip)) ('a' :: '=' :: (c!"rtpmap" ++ (':' :: (dec pt ++ (c!" " ++ (showCodec m.codec ++ (c!"/" ++ (dec m.clockRate ++
      (showChannels m.channels ++ (nl ++ r)))))))))) (.rtpMap pt m) r := by
  obtain ⟨h1, h2, h3, h4, h5⟩ := h
  refine attrLine_reads ((pt_reads h1 _).then ((Reads.token ' ' _).then ?_))
  refine (Reads.many1c (codec_word m.codec).1 (codec_word m.codec).2 (Stops.cons (by decide))).then ((Reads.token '/' _).then ?_)
  refine ((Reads.many1c (dec_ne_nil _) (rate_chars m.clockRate) (channels_stops m.channels r)).andThen (w := m.clockRate) ?_).then ?_
  · rw [parseNat_dec (2^32 - 1) _ (Nat.le_pred_of_lt h4)]
    simp [Option.filter]; omega
  · refine (channels_reads m.channels h5 r).then ?_
    rw [codec_parse _ h2]
    exact Reads.ret _ _

theorem rtcpFb_reads (pt : Nat) (v : Str) (h : pt ≤ 127 ∧ Val v) (r : Str) :
    Reads (rtcpFbP (Ip := Ip)) ('a' :: '=' :: (c!"rtcp-fb" ++ (':' :: (dec pt ++ (c!" " ++ (v ++ (nl ++ r))))))) (.rtcpFb pt v) r :=
  attrLine_reads ((pt_reads h.1 _).then ((Reads.token ' ' _).then ((anyValue_reads h.2 r).then (Reads.ret _ _))))

theorem spaces_none {i : Str} (h : Stops isWs i) : Reads (opt spaces) i (some ()) i := by
  refine Reads.optSome ⟨(i.takeWhile isWs != []), ?_⟩
  have : i.dropWhile isWs = i := by simpa using dropWhile_stops (t := []) (by simp) h
  simp [spaces, this]

theorem keyVal_reads (p : Str × Str) (h1 : Plain p.1) (h2 : Plain p.2) (r : Str) (hr : Stops (fun c => c != ';' && c != ' ' && c != '\r' && c != '\n') r) :
    Reads keyValP (kv p ++ r) p r := by
  unfold kv
  simp only [List.append_assoc]
  have hs : Stops isWs (p.1 ++ (c!"=" ++ (p.2 ++ r))) := by
    intro c hc
    obtain ⟨k, hk⟩ := h1
    cases hp : p.1 with
    | nil => exact absurd hp k
    | cons x xs =>
      rw [hp] at hc
      simp only [List.cons_append, List.head?_cons, Option.mem_def, Option.some.injEq] at hc
      subst hc
      exact (hk x (by simp [hp])).2.2.1
  refine (spaces_none hs).then ((Reads.many1c h1.1 ?_ (Stops.cons (by decide))).then ((Reads.token '=' _).then ((Reads.many1c h2.1 ?_ hr).then (Reads.ret _ _))))
  · intro c hc
    obtain ⟨a, _, _, b, d, e⟩ := h1.2 c hc
    simp [a, b, d, e]
  · intro c hc
    obtain ⟨_, a, _, b, d, e⟩ := h2.2 c hc
    simp [a, b, d, e]

/-- Pairs with `;` between, to the end of the line -/
theorem keyVals_reads (ps : List (Str × Str)) (hne : ps ≠ []) (h : ∀ p ∈ ps, Plain p.1 ∧ Plain p.2) (r : Str) :
    Reads (sepBy1 keyValP (token ';')) (join c!";" (ps.map kv) ++ (nl ++ r)) ps (nl ++ r) := by
  have := sepBy1_reads (p := keyValP) ';' (ps.map (fun p => (kv p, p))) (by simpa using hne) (nl ++ r) (endl_stops (by decide) r) (by
    intro x hx r' hr'
    obtain ⟨p, hp, rfl⟩ := List.mem_map.1 hx
    refine keyVal_reads p (h p hp).1 (h p hp).2 r' ?_
    rcases hr' with rfl | ⟨y, rfl⟩
    · exact Stops.cons (by decide)
    · exact Stops.cons (by decide))
  simp only [List.map_map] at this
  have e : ((fun x : Str × Str × Str => x.1) ∘ fun p : Str × Str => (kv p, p)) = kv := rfl
  have e2 : ((fun x : Str × Str × Str => x.2) ∘ fun p : Str × Str => (kv p, p)) = id := rfl
  rw [e, e2, List.map_id] at this
  exact this

theorem fmtp_reads (env : Env Ip) (pt : Nat) (vs : List FP) (hpt : pt ≤ 127) (hne : vs ≠ []) (h : ∀ v ∈ vs, v.Fits) (r : Str) :
    Reads (fmtpP env) ('a' :: '=' :: (c!"fmtp" ++ (':' :: (dec pt ++ (c!" " ++ (join c!";" (vs.map FP.show) ++ (nl ++ r)))))))
      (.fmtp pt (parsePairs env (vs.flatMap FP.pairs))) r := by
  rw [join_pairs vs h]
  refine Reads.head _ (Reads.attempt (attrLine_reads ((pt_reads hpt _).then ((Reads.token ' ' _).then ((keyVals_reads _ ?_ ?_ r).then (Reads.ret _ _))))))
  · cases vs with
    | nil => exact absurd rfl hne
    | cons v vs => simp [FP.pairs_ne_nil v (h v (by simp))]
  · intro p hp
    obtain ⟨v, _, hv⟩ := List.mem_flatMap.1 hp
    exact v.pairs_plain p hv

theorem name_reads (env : Env Ip) {s : Str} (h : RidText env s) {r : Str} (hr : Stops env.alnum r) : Reads (name env) (s ++ r) s r :=
  Reads.many1c h.1 h.2 hr

theorem sendRecv_reads (b : Bool) (r : Str) : Reads sendRecvP ((if b then c!"send" else c!"recv") ++ r) b r := by
  cases b with
  | true => exact Reads.head _ ((Reads.string c!"send" r).pmap _)
  | false => exact Reads.tail rfl (Reads.head _ ((Reads.string c!"recv" r).pmap _))

theorem showKv_eq : showKv = kv := rfl

theorem string_fails_head {c t : Char} {ts : Str} (h : c ≠ t) (r : Str) : Fails (string (t :: ts)) (c :: r) := by
  simp [Fails, string, stringGo, h]

theorem rid_reads (env : Env Ip) (henv : EnvOk env) (id : Str) (send : Bool) (rs : List (Str × Str)) (hid : RidText env id)
    (hr : ∀ p ∈ rs, Plain p.1 ∧ Plain p.2) (hp : ∀ p ∈ rs.head?, p.1.head? ≠ some 'p') (r : Str) :
    Reads (ridP env) ('a' :: '=' :: (c!"rid" ++ (':' :: (id ++ (c!" " ++ ((if send then c!"send" else c!"recv") ++ (showRidRestr [] rs ++ (nl ++ r))))))))
      (.rid id send [] rs) r := by
  refine attrLine_reads ((name_reads env hid (Stops.cons (henv.alnum ' ' (by simp)))).then ((Reads.token ' ' _).then ((sendRecv_reads send _).then ?_)))
  by_cases h0 : rs = []
  · subst h0
    exact (Reads.optNone (Fails.then (Fails.token (endl_stops (by decide) r)))).then (Reads.ret _ _)
  · rw [showRidRestr, if_neg h0, if_pos rfl, showKv_eq, List.append_assoc]
    refine (Reads.optSome (v := ([], rs)) ((Reads.token ' ' _).then ?_)).then (Reads.ret _ _)
    refine (Reads.optNone ?_).then (((keyVals_reads rs h0 hr r).optSome.pmap _).then (Reads.ret _ _))
    refine Fails.then ?_
    cases rs with
    | nil => exact absurd rfl h0
    | cons p ps =>
      have hp := hp p rfl
      have hpl := (hr p (by simp)).1.1
      rw [List.map_cons, join_flat]
      unfold kv
      cases hk : p.1 with
      | nil => exact absurd hk hpl
      | cons c k =>
        have hc : c ≠ 'p' := by rw [hk] at hp; simpa using hp
        exact string_fails_head hc _

theorem simRid_reads (env : Env Ip) (henv : EnvOk env) (l : Layer) (h : LayerOk env l) {r : Str} (hr : Stops env.alnum r) :
    Reads (simRid env) (l.show ++ r) (l.rid, l.active) r := by
  unfold Layer.show
  by_cases ha : l.active = true
  · rw [if_pos ha, List.nil_append]
    have hn : Fails (token '~') (l.rid ++ r) := by
      refine Fails.token ?_
      intro c hc
      cases hl : l.rid with
      | nil => exact absurd hl h.1
      | cons x xs =>
        rw [hl] at hc
        simp only [List.cons_append, List.head?_cons, Option.mem_def, Option.some.injEq] at hc
        subst hc
        have h1 := h.2 x (by simp [hl])
        by_contra hx
        have hx : x = '~' := by simpa using hx
        rw [hx, henv.alnum '~' (by simp)] at h1
        exact absurd h1 (by simp)
    have := (Reads.optNone hn).then (f := fun t => thenP (name env) fun n => ret (n, t.isNone)) ((name_reads env h hr).then (Reads.ret _ _))
    rw [ha]
    exact this
  · have ha : l.active = false := by simpa using ha
    rw [if_neg (by simp [ha]), List.append_assoc]
    have := (Reads.optSome (Reads.token '~' (l.rid ++ r))).then (f := fun t => thenP (name env) fun n => ret (n, t.isNone)) ((name_reads env h hr).then (Reads.ret _ _))
    rw [ha]
    exact this

theorem simul1_reads (env : Env Ip) (henv : EnvOk env) (d : Str) (ls : List Layer) (hne : ls ≠ []) (h : ∀ l ∈ ls, LayerOk env l) (r : Str)
    (hr : ∃ c x, r = c :: x ∧ (c = ' ' ∨ c = '\r')) :
    Reads (simul1 env d) (d ++ (c!" " ++ (showGroups ls ++ r))) (ls.map (fun l => [(l.rid, l.active)])) r := by
  obtain ⟨c, x, rfl, hc⟩ := hr
  refine (Reads.string _ _).then ((Reads.token ' ' _).then ?_)
  have := sepBy1_reads (p := sepBy1 (simRid env) (token ',')) ';' (ls.map (fun l => (l.show, [(l.rid, l.active)]))) (by simpa using hne) (c :: x)
    (Stops.cons (by rcases hc with rfl | rfl <;> decide)) (by
    intro y hy r' hr'
    obtain ⟨l, hl, rfl⟩ := List.mem_map.1 hy
    have h1 : Stops env.alnum r' := by
      rcases hr' with rfl | ⟨z, rfl⟩
      · rcases hc with rfl | rfl
        · exact Stops.cons (henv.alnum ' ' (by simp))
        · exact Stops.cons (henv.alnum '\r' (by simp))
      · exact Stops.cons (henv.alnum ';' (by simp))
    have h2 : Stops (fun c => c == ',') r' := by
      rcases hr' with rfl | ⟨z, rfl⟩
      · rcases hc with rfl | rfl
        · exact Stops.cons (by decide)
        · exact Stops.cons (by decide)
      · exact Stops.cons (by decide)
    have := sepBy1_reads (p := simRid env) ',' [(l.show, (l.rid, l.active))] (by simp) r' h2 (by
      intro z hz r'' hr''
      simp only [List.mem_singleton] at hz
      subst hz
      refine simRid_reads env henv l (h l hl) ?_
      rcases hr'' with rfl | ⟨w, rfl⟩
      · exact h1
      · exact Stops.cons (henv.alnum ',' (by simp)))
    simpa [join] using this)
  simp only [List.map_map] at this
  exact this

theorem toSimul_map (ls : List Layer) : toSimul (ls.map (fun l => [(l.rid, l.active)])) = ls.map (fun l => { l with attributes := none }) := by
  unfold toSimul
  induction ls with
  | nil => rfl
  | cons l ls ih => simp_all

theorem simulcast_reads (env : Env Ip) (henv : EnvOk env) (s : Simulcast) (hm : s.munged = false) (h1 : s.send ≠ [] ∨ s.recv ≠ [])
    (h2 : ∀ l ∈ s.send ++ s.recv, LayerOk env l) (r : Str) :
    Reads (simulcastP env) (s.show ++ r) (.simulcast { s with
      send := s.send.map (fun l => { l with attributes := none }), recv := s.recv.map (fun l => { l with attributes := none }) }) r := by
  have hs : ∀ l ∈ s.send, LayerOk env l := fun l hl => h2 l (by simp [hl])
  have hr : ∀ l ∈ s.recv, LayerOk env l := fun l hl => h2 l (by simp [hl])
  have key : ∀ a b : List Layer, a = s.send → b = s.recv → (MediaAttr.simulcast { s with
      send := s.send.map (fun l => { l with attributes := none }), recv := s.recv.map (fun l => { l with attributes := none }) } : MediaAttr Ip) =
      .simulcast { send := toSimul (a.map (fun l => [(l.rid, l.active)])), recv := toSimul (b.map (fun l => [(l.rid, l.active)])), munged := false } := by
    rintro a b rfl rfl
    rw [toSimul_map, toSimul_map, ← hm]
  rw [key s.send s.recv rfl rfl]
  unfold Simulcast.show
  rw [if_neg (by simp [hm])]
  by_cases hse : s.send = []
  · have hre : s.recv ≠ [] := by simpa [hse] using h1
    simp only [hse, if_true, if_neg hre, List.append_assoc, List.nil_append, List.append_nil]
    refine attrLine_reads (k := c!"simulcast") (Reads.tail rfl (Reads.head _ ?_))
    refine (simul1_reads env henv c!"recv" s.recv hre hr (nl ++ r) ⟨_, _, rfl, Or.inr rfl⟩).then ?_
    exact (Reads.optNone (Fails.then (Fails.token (endl_stops (by decide) r)))).then (Reads.ret _ _)
  · simp only [if_neg hse, List.append_assoc]
    refine attrLine_reads (k := c!"simulcast") (Reads.head _ ?_)
    by_cases hre : s.recv = []
    · simp only [hre, if_true, List.nil_append]
      refine (simul1_reads env henv c!"send" s.send hse hs (nl ++ r) ⟨_, _, rfl, Or.inr rfl⟩).then ?_
      exact (Reads.optNone (Fails.then (Fails.token (endl_stops (by decide) r)))).then (Reads.ret _ _)
    · simp only [if_neg hre, List.append_assoc]
      refine (simul1_reads env henv c!"send" s.send hse hs _ ⟨_, _, rfl, Or.inl rfl⟩).then ?_
      refine (Reads.optSome ((Reads.token ' ' _).then (simul1_reads env henv c!"recv" s.recv hre hr (nl ++ r) ⟨_, _, rfl, Or.inr rfl⟩))).then ?_
      exact Reads.ret _ _

theorem ssrcGroup_reads (sem : Str) (ns : List Nat) (h : Tok sem ∧ ns ≠ [] ∧ ∀ n ∈ ns, n < 2 ^ 32) (r : Str) :
    Reads (ssrcGroupP (Ip := Ip)) ('a' :: '=' :: (c!"ssrc-group" ++ (':' :: (sem ++ (c!" " ++ (join c!" " (ns.map dec) ++ (nl ++ r))))))) (.ssrcGroup sem ns) r :=
  attrLine_reads ((notSp_sep h.1 (Sep.sp _)).then ((Reads.token ' ' _).then
    ((nums_reads (2^32 - 1) ns h.2.1 r (fun n hn => Nat.le_pred_of_lt (h.2.2 n hn))).then (Reads.ret _ _))))

theorem colon_reads {a : Str} (h1 : a ≠ []) (h2 : ∀ c ∈ a, c ≠ ':') (r : Str) : Reads (many1c (fun c => c != ':')) (a ++ ':' :: r) a (':' :: r) :=
  Reads.many1c h1 (by intro c hc; simpa using h2 c hc) (Stops.cons (by decide))

theorem ssrc_reads (n : Nat) (a v : Str) (h : n < 2 ^ 32 ∧ a ≠ [] ∧ (∀ c ∈ a, c ≠ ':') ∧ Val v) (r : Str) :
    Reads (ssrcP (Ip := Ip)) ('a' :: '=' :: (c!"ssrc" ++ (':' :: (dec n ++ (c!" " ++ (a ++ (c!":" ++ (v ++ (nl ++ r))))))))) (.ssrc n a v) r :=
  attrLine_reads ((numTok_sep (Nat.le_pred_of_lt h.1) (Sep.sp _)).then ((Reads.token ' ' _).then ((colon_reads h.2.1 h.2.2.1 _).then
    ((Reads.token ':' _).then ((anyValue_reads h.2.2.2 r).then (Reads.ret _ _))))))

theorem media_unused (env : Env Ip) (v : Str) (hc : UnusedOk mediaKeys mediaFlags v) (r : Str) :
    Reads (mediaAttrP env) ('a' :: '=' :: (v ++ (nl ++ r))) (.unused v) r := by
  obtain ⟨hv, hk, hf⟩ := hc
  have key : ∀ (α β : Type) (f : α → β) (k : Str) (val : P α), k ∈ mediaKeys → '\r' ∉ k → Fails (attempt (pmap f (attrLine k val))) ('a' :: '=' :: (v ++ (nl ++ r))) :=
    fun α β f k val h1 h2 => ((keyed_errs (hk k h1) h2).pmap f).attempt
  have key0 : ∀ (α : Type) (k : Str) (val : P α), k ∈ mediaKeys → '\r' ∉ k → Fails (attempt (attrLine k val)) ('a' :: '=' :: (v ++ (nl ++ r))) :=
    fun α k val h1 h2 => (keyed_errs (hk k h1) h2).attempt
  have flag : ∀ (β : Type) (f : Unit → β) (k : Str), k ∈ mediaFlags → '\r' ∉ k → Fails (attempt (pmap f (attrFlag k))) ('a' :: '=' :: (v ++ (nl ++ r))) :=
    fun β f k h1 h2 => ((flag_errs hv (hf k h1) h2).pmap f).attempt
  refine Reads.tail ((Fails.errs ?_).attempt) (Reads.tail ((Fails.errs ?_).attempt) (Reads.head _ (unused_reads hv r)))
  · refine Fails.choice_cons (key _ _ _ c!"ice-ufrag" _ (by decide) (by decide)) ?_
    refine Fails.choice_cons (key _ _ _ c!"ice-pwd" _ (by decide) (by decide)) ?_
    refine Fails.choice_cons (key _ _ _ c!"ice-options" _ (by decide) (by decide)) ?_
    refine Fails.choice_cons (key _ _ _ c!"fingerprint" _ (by decide) (by decide)) ?_
    refine Fails.choice_cons (key _ _ _ c!"setup" _ (by decide) (by decide)) ?_
    refine Fails.choice_cons (key _ _ _ c!"mid" _ (by decide) (by decide)) ?_
    refine Fails.choice_cons (key _ _ _ c!"sctp-port" _ (by decide) (by decide)) ?_
    refine Fails.choice_cons (key _ _ _ c!"max-message-size" _ (by decide) (by decide)) ?_
    refine Fails.choice_cons (key _ _ _ c!"sctp-init" _ (by decide) (by decide)) ?_
    refine Fails.choice_cons (key0 _ c!"extmap" _ (by decide) (by decide)) ?_
    refine Fails.choice_cons (dir_errs ?_) ?_
    · intro k hk'
      simp only [List.mem_cons, List.not_mem_nil, or_false] at hk'
      rcases hk' with rfl | rfl | rfl | rfl
      · exact flag_errs hv (hf _ (by decide)) (by decide)
      · exact flag_errs hv (hf _ (by decide)) (by decide)
      · exact flag_errs hv (hf _ (by decide)) (by decide)
      · exact flag_errs hv (hf _ (by decide)) (by decide)
    refine Fails.choice_cons (key0 _ c!"msid" _ (by decide) (by decide)) ?_
    refine Fails.choice_cons (key _ _ _ c!"rtcp" _ (by decide) (by decide)) ?_
    exact Fails.choice_nil _
  · refine Fails.choice_cons (flag _ _ c!"rtcp-mux" (by decide) (by decide)) ?_
    refine Fails.choice_cons (flag _ _ c!"rtcp-mux-only" (by decide) (by decide)) ?_
    refine Fails.choice_cons (flag _ _ c!"rtcp-rsize" (by decide) (by decide)) ?_
    refine Fails.choice_cons ((cand_errs env (hk c!"candidate" (by decide))).pmap _).attempt ?_
    refine Fails.choice_cons (flag _ _ c!"end-of-candidates" (by decide) (by decide)) ?_
    refine Fails.choice_cons (key0 _ c!"rtpmap" _ (by decide) (by decide)) ?_
    refine Fails.choice_cons (key0 _ c!"rtcp-fb" _ (by decide) (by decide)) ?_
    refine Fails.choice_cons (fmtp_errs env (fun _ => keyed_errs (hk c!"fmtp" (by decide)) (by decide))) ?_
    refine Fails.choice_cons (key0 _ c!"rid" _ (by decide) (by decide)) ?_
    refine Fails.choice_cons (key0 _ c!"simulcast" _ (by decide) (by decide)) ?_
    refine Fails.choice_cons (key0 _ c!"ssrc-group" _ (by decide) (by decide)) ?_
    refine Fails.choice_cons (key0 _ c!"ssrc" _ (by decide) (by decide)) ?_
    exact Fails.choice_nil _

/-! ### Media attributes -/

theorem media_iceUfrag (env : Env Ip) (v : Str) (h : Val v) (r : Str) :
    Reads (mediaAttrP env) (c!"a=ice-ufrag:" ++ (v ++ (nl ++ r))) (.iceUfrag v) r := by
    refine Reads.head _ (Reads.attempt (Reads.head _ (Reads.attempt ?_)))
    exact (attrLine_reads (k := c!"ice-ufrag") (anyValue_reads h r)).pmap _

theorem media_icePwd (env : Env Ip) (v : Str) (h : Val v) (r : Str) :
    Reads (mediaAttrP env) (c!"a=ice-pwd:" ++ (v ++ (nl ++ r))) (.icePwd v) r := by
    obtain ⟨m0, _⟩ := skip1 Ip c!"a=ice-pwd:" (v ++ (nl ++ r))
    refine Reads.head _ (Reads.attempt (Reads.tail (m0 (by decide)) (Reads.head _ (Reads.attempt ?_))))
    exact (attrLine_reads (k := c!"ice-pwd") (anyValue_reads h r)).pmap _

theorem media_iceOptions (env : Env Ip) (v : Str) (h : Val v) (r : Str) :
    Reads (mediaAttrP env) (c!"a=ice-options:" ++ (v ++ (nl ++ r))) (.iceOptions v) r := by
    obtain ⟨m0, m1, _⟩ := skip1 Ip c!"a=ice-options:" (v ++ (nl ++ r))
    refine Reads.head _ (Reads.attempt (Reads.tail (m0 (by decide)) (Reads.tail (m1 (by decide)) (Reads.head _ (Reads.attempt ?_)))))
    exact (attrLine_reads (k := c!"ice-options") (anyValue_reads h r)).pmap _

theorem media_sctpInit (env : Env Ip) (v : Str) (h : Val v) (r : Str) :
    Reads (mediaAttrP env) (c!"a=sctp-init:" ++ (v ++ (nl ++ r))) (.sctpInit v) r := by
    obtain ⟨m0, m1, m2, m3, m4, m5, m6, m7, _⟩ := skip1 Ip c!"a=sctp-init:" (v ++ (nl ++ r))
    refine Reads.head _ (Reads.attempt (Reads.tail (m0 (by decide)) (Reads.tail (m1 (by decide)) (Reads.tail (m2 (by decide)) (Reads.tail (m3 (by decide)) (Reads.tail (m4 (by decide)) (Reads.tail (m5 (by decide)) (Reads.tail (m6 (by decide)) (Reads.tail (m7 (by decide)) (Reads.head _ (Reads.attempt ?_)))))))))))
    exact (attrLine_reads (k := c!"sctp-init") (anyValue_reads h r)).pmap _

theorem media_rtcp (env : Env Ip) (v : Str) (h : Val v) (r : Str) :
    Reads (mediaAttrP env) (c!"a=rtcp:" ++ (v ++ (nl ++ r))) (.rtcp v) r := by
    obtain ⟨m0, m1, m2, m3, m4, m5, m6, m7, m8, m9, m10, m11, _⟩ := skip1 Ip c!"a=rtcp:" (v ++ (nl ++ r))
    refine Reads.head _ (Reads.attempt (Reads.tail (m0 (by decide)) (Reads.tail (m1 (by decide)) (Reads.tail (m2 (by decide)) (Reads.tail (m3 (by decide)) (Reads.tail (m4 (by decide)) (Reads.tail (m5 (by decide)) (Reads.tail (m6 (by decide)) (Reads.tail (m7 (by decide)) (Reads.tail (m8 (by decide)) (Reads.tail (m9 (by decide)) (Reads.tail (m10 (by decide)) (Reads.tail (m11 (by decide)) (Reads.head _ (Reads.attempt ?_)))))))))))))))
    exact (attrLine_reads (k := c!"rtcp") (anyValue_reads h r)).pmap _

theorem media_fingerprint (env : Env Ip) (f : Fingerprint) (h : FingerprintOk f) (r : Str) :
    Reads (mediaAttrP env) (c!"a=fingerprint:" ++ (f.hash ++ (c!" " ++ (showFinger f.bytes ++ (nl ++ r))))) (.fingerprint f) r := by
    obtain ⟨m0, m1, m2, _⟩ := skip1 Ip c!"a=fingerprint:" (f.hash ++ (c!" " ++ (showFinger f.bytes ++ (nl ++ r))))
    refine Reads.head _ (Reads.attempt (Reads.tail (m0 (by decide)) (Reads.tail (m1 (by decide)) (Reads.tail (m2 (by decide)) (Reads.head _ (Reads.attempt ?_))))))
    exact (finger_reads f h r).pmap _

theorem media_setup (env : Env Ip) (s : Setup)  (r : Str) :
    Reads (mediaAttrP env) (c!"a=setup:" ++ (showSetup s ++ (nl ++ r))) (.setup s) r := by
    obtain ⟨m0, m1, m2, m3, _⟩ := skip1 Ip c!"a=setup:" (showSetup s ++ (nl ++ r))
    refine Reads.head _ (Reads.attempt (Reads.tail (m0 (by decide)) (Reads.tail (m1 (by decide)) (Reads.tail (m2 (by decide)) (Reads.tail (m3 (by decide)) (Reads.head _ (Reads.attempt ?_)))))))
    exact (setup_reads s r).pmap _

theorem media_mid (env : Env Ip) (m : Str) (h : MidText m) (r : Str) :
    Reads (mediaAttrP env) (c!"a=mid:" ++ (m ++ (nl ++ r))) (.mid m) r := by
    obtain ⟨m0, m1, m2, m3, m4, _⟩ := skip1 Ip c!"a=mid:" (m ++ (nl ++ r))
    refine Reads.head _ (Reads.attempt (Reads.tail (m0 (by decide)) (Reads.tail (m1 (by decide)) (Reads.tail (m2 (by decide)) (Reads.tail (m3 (by decide)) (Reads.tail (m4 (by decide)) (Reads.head _ (Reads.attempt ?_))))))))
    have := (attrLine_reads (k := c!"mid") (anyValue_reads h.tok.val r)).pmap (fun m => MediaAttr.mid (Ip := Ip) (midOf m))
    rw [h.midOf] at this
    exact this

theorem media_sctpPort (env : Env Ip) (n : Nat) (h : n ≤ 65535) (r : Str) :
    Reads (mediaAttrP env) (c!"a=sctp-port:" ++ (dec n ++ (nl ++ r))) (.sctpPort n) r := by
    obtain ⟨m0, m1, m2, m3, m4, m5, _⟩ := skip1 Ip c!"a=sctp-port:" (dec n ++ (nl ++ r))
    refine Reads.head _ (Reads.attempt (Reads.tail (m0 (by decide)) (Reads.tail (m1 (by decide)) (Reads.tail (m2 (by decide)) (Reads.tail (m3 (by decide)) (Reads.tail (m4 (by decide)) (Reads.tail (m5 (by decide)) (Reads.head _ (Reads.attempt ?_)))))))))
    exact (attrLine_reads (k := c!"sctp-port") (num_end h r)).pmap _

theorem media_maxMessageSize (env : Env Ip) (n : Nat) (h : n < 2 ^ 64) (r : Str) :
    Reads (mediaAttrP env) (c!"a=max-message-size:" ++ (dec n ++ (nl ++ r))) (.maxMessageSize n) r := by
    obtain ⟨m0, m1, m2, m3, m4, m5, m6, _⟩ := skip1 Ip c!"a=max-message-size:" (dec n ++ (nl ++ r))
    refine Reads.head _ (Reads.attempt (Reads.tail (m0 (by decide)) (Reads.tail (m1 (by decide)) (Reads.tail (m2 (by decide)) (Reads.tail (m3 (by decide)) (Reads.tail (m4 (by decide)) (Reads.tail (m5 (by decide)) (Reads.tail (m6 (by decide)) (Reads.head _ (Reads.attempt ?_))))))))))
    exact (attrLine_reads (k := c!"max-message-size") (num_end (Nat.le_pred_of_lt h) r)).pmap _

theorem media_extMap (env : Env Ip) (id : Nat) (e : Ext) (h : id ≤ 255 ∧ Tok e.toUri ∧ ∀ s, e = .uri s → ∀ k : KnownExt, k.uri ≠ s) (r : Str) :
    Reads (mediaAttrP env) (c!"a=extmap:" ++ (dec id ++ (c!" " ++ (e.toUri ++ (nl ++ r))))) (.extMap id e) r := by
    obtain ⟨m0, m1, m2, m3, m4, m5, m6, m7, m8, _⟩ := skip1 Ip c!"a=extmap:" (dec id ++ (c!" " ++ (e.toUri ++ (nl ++ r))))
    refine Reads.head _ (Reads.attempt (Reads.tail (m0 (by decide)) (Reads.tail (m1 (by decide)) (Reads.tail (m2 (by decide)) (Reads.tail (m3 (by decide)) (Reads.tail (m4 (by decide)) (Reads.tail (m5 (by decide)) (Reads.tail (m6 (by decide)) (Reads.tail (m7 (by decide)) (Reads.tail (m8 (by decide)) (Reads.head _ (Reads.attempt ?_))))))))))))
    exact extMap_reads id e h r

theorem media_dir_recvOnly (env : Env Ip)   (r : Str) :
    Reads (mediaAttrP env) (c!"a=recvonly" ++ (nl ++ r)) (.dir .recvOnly) r := by
    obtain ⟨m0, m1, m2, m3, m4, m5, m6, m7, m8, m9, _⟩ := skip1 Ip c!"a=recvonly" (nl ++ r)
    refine Reads.head _ (Reads.attempt (Reads.tail (m0 (by decide)) (Reads.tail (m1 (by decide)) (Reads.tail (m2 (by decide)) (Reads.tail (m3 (by decide)) (Reads.tail (m4 (by decide)) (Reads.tail (m5 (by decide)) (Reads.tail (m6 (by decide)) (Reads.tail (m7 (by decide)) (Reads.tail (m8 (by decide)) (Reads.tail (m9 (by decide)) (Reads.head _ (Reads.attempt ?_)))))))))))))
    exact dir_reads .recvOnly r

theorem media_dir_sendRecv (env : Env Ip)   (r : Str) :
    Reads (mediaAttrP env) (c!"a=sendrecv" ++ (nl ++ r)) (.dir .sendRecv) r := by
    obtain ⟨m0, m1, m2, m3, m4, m5, m6, m7, m8, m9, _⟩ := skip1 Ip c!"a=sendrecv" (nl ++ r)
    refine Reads.head _ (Reads.attempt (Reads.tail (m0 (by decide)) (Reads.tail (m1 (by decide)) (Reads.tail (m2 (by decide)) (Reads.tail (m3 (by decide)) (Reads.tail (m4 (by decide)) (Reads.tail (m5 (by decide)) (Reads.tail (m6 (by decide)) (Reads.tail (m7 (by decide)) (Reads.tail (m8 (by decide)) (Reads.tail (m9 (by decide)) (Reads.head _ (Reads.attempt ?_)))))))))))))
    exact dir_reads .sendRecv r

theorem media_dir_sendOnly (env : Env Ip)   (r : Str) :
    Reads (mediaAttrP env) (c!"a=sendonly" ++ (nl ++ r)) (.dir .sendOnly) r := by
    obtain ⟨m0, m1, m2, m3, m4, m5, m6, m7, m8, m9, _⟩ := skip1 Ip c!"a=sendonly" (nl ++ r)
    refine Reads.head _ (Reads.attempt (Reads.tail (m0 (by decide)) (Reads.tail (m1 (by decide)) (Reads.tail (m2 (by decide)) (Reads.tail (m3 (by decide)) (Reads.tail (m4 (by decide)) (Reads.tail (m5 (by decide)) (Reads.tail (m6 (by decide)) (Reads.tail (m7 (by decide)) (Reads.tail (m8 (by decide)) (Reads.tail (m9 (by decide)) (Reads.head _ (Reads.attempt ?_)))))))))))))
    exact dir_reads .sendOnly r

theorem media_dir_inactive (env : Env Ip)   (r : Str) :
    Reads (mediaAttrP env) (c!"a=inactive" ++ (nl ++ r)) (.dir .inactive) r := by
    obtain ⟨m0, m1, m2, m3, m4, m5, m6, m7, m8, m9, _⟩ := skip1 Ip c!"a=inactive" (nl ++ r)
    refine Reads.head _ (Reads.attempt (Reads.tail (m0 (by decide)) (Reads.tail (m1 (by decide)) (Reads.tail (m2 (by decide)) (Reads.tail (m3 (by decide)) (Reads.tail (m4 (by decide)) (Reads.tail (m5 (by decide)) (Reads.tail (m6 (by decide)) (Reads.tail (m7 (by decide)) (Reads.tail (m8 (by decide)) (Reads.tail (m9 (by decide)) (Reads.head _ (Reads.attempt ?_)))))))))))))
    exact dir_reads .inactive r

theorem media_msid (env : Env Ip) (s t : Str) (h : Tok s ∧ Val t) (r : Str) :
    Reads (mediaAttrP env) (c!"a=msid:" ++ (s ++ (c!" " ++ (t ++ (nl ++ r))))) (.msid s t) r := by
    obtain ⟨m0, m1, m2, m3, m4, m5, m6, m7, m8, m9, m10, _⟩ := skip1 Ip c!"a=msid:" (s ++ (c!" " ++ (t ++ (nl ++ r))))
    refine Reads.head _ (Reads.attempt (Reads.tail (m0 (by decide)) (Reads.tail (m1 (by decide)) (Reads.tail (m2 (by decide)) (Reads.tail (m3 (by decide)) (Reads.tail (m4 (by decide)) (Reads.tail (m5 (by decide)) (Reads.tail (m6 (by decide)) (Reads.tail (m7 (by decide)) (Reads.tail (m8 (by decide)) (Reads.tail (m9 (by decide)) (Reads.tail (m10 (by decide)) (Reads.head _ (Reads.attempt ?_))))))))))))))
    exact msid_reads s t h r

theorem media_rtcpMux (env : Env Ip)   (r : Str) :
    Reads (mediaAttrP env) (c!"a=rtcp-mux" ++ (nl ++ r)) (.rtcpMux) r := by
    refine Reads.tail (first_fails c!"a=rtcp-mux" (nl ++ r) (by decide)) (Reads.head _ (Reads.attempt (Reads.head _ (Reads.attempt ?_))))
    exact (attrFlag_reads (k := c!"rtcp-mux")).pmap _

theorem media_rtcpRsize (env : Env Ip)   (r : Str) :
    Reads (mediaAttrP env) (c!"a=rtcp-rsize" ++ (nl ++ r)) (.rtcpRsize) r := by
    obtain ⟨m0, m1, _⟩ := skip2 env c!"a=rtcp-rsize" (nl ++ r)
    refine Reads.tail (first_fails c!"a=rtcp-rsize" (nl ++ r) (by decide)) (Reads.head _ (Reads.attempt (Reads.tail (m0 (by decide)) (Reads.tail (m1 (by decide)) (Reads.head _ (Reads.attempt ?_))))))
    exact (attrFlag_reads (k := c!"rtcp-rsize")).pmap _

theorem media_endOfCandidates (env : Env Ip)   (r : Str) :
    Reads (mediaAttrP env) (c!"a=end-of-candidates" ++ (nl ++ r)) (.endOfCandidates) r := by
    obtain ⟨m0, m1, m2, m3, _⟩ := skip2 env c!"a=end-of-candidates" (nl ++ r)
    refine Reads.tail (first_fails c!"a=end-of-candidates" (nl ++ r) (by decide)) (Reads.head _ (Reads.attempt (Reads.tail (m0 (by decide)) (Reads.tail (m1 (by decide)) (Reads.tail (m2 (by decide)) (Reads.tail (m3 (by decide)) (Reads.head _ (Reads.attempt ?_))))))))
    exact (attrFlag_reads (k := c!"end-of-candidates")).pmap _

theorem media_rtcpMuxOnly (env : Env Ip)   (r : Str) :
    Reads (mediaAttrP env) (c!"a=rtcp-mux-only" ++ (nl ++ r)) (.rtcpMuxOnly) r := by
    have m0 : Fails (attempt (pmap (fun _ => MediaAttr.rtcpMux (Ip := Ip)) (attrFlag c!"rtcp-mux"))) (c!"a=rtcp-mux-only" ++ (nl ++ r)) :=
      ((flag_errs (k := c!"rtcp-mux") (v := c!"rtcp-mux-only") ⟨by decide, by decide⟩ (by decide) (by decide)).pmap _).attempt
    refine Reads.tail (first_fails c!"a=rtcp-mux-only" (nl ++ r) (by decide)) (Reads.head _ (Reads.attempt (Reads.tail m0 (Reads.head _ (Reads.attempt ?_)))))
    exact (attrFlag_reads (k := c!"rtcp-mux-only")).pmap _

theorem media_candidate (env : Env Ip) (henv : env.IpOk) (c : Cand Ip) (h : CandOk c) (r : Str) :
    Reads (mediaAttrP env) (c!"a=candidate:" ++ ((c.foundation ++ spaced (candWords env c)) ++ (nl ++ r))) (.candidate c) r := by
    obtain ⟨m0, m1, m2, _⟩ := skip2 env c!"a=candidate:" ((c.foundation ++ spaced (candWords env c)) ++ (nl ++ r))
    refine Reads.tail (first_fails c!"a=candidate:" ((c.foundation ++ spaced (candWords env c)) ++ (nl ++ r)) (by decide)) (Reads.head _ (Reads.attempt (Reads.tail (m0 (by decide)) (Reads.tail (m1 (by decide)) (Reads.tail (m2 (by decide)) (Reads.head _ (Reads.attempt ?_)))))))
    have e : c!"a=candidate:" ++ ((c.foundation ++ spaced (candWords env c)) ++ (nl ++ r)) = c!"a=" ++ (c.show env ++ (nl ++ r)) := by
      simp only [show_words, List.append_assoc]; rfl
    have key := (candAttr_reads env henv c h r).pmap (MediaAttr.candidate (Ip := Ip))
    rw [← e] at key
    exact key

theorem media_rtpMap (env : Env Ip) (pt : Nat) (m : RtpMap) (h : pt ≤ 127 ∧ m.codec ≠ .null ∧ 0 < m.clockRate ∧ m.clockRate < 2 ^ 32 ∧ ∀ n ∈ m.channels, n ≤ 255) (r : Str) :
    Reads (mediaAttrP env) (c!"a=rtpmap:" ++ (dec pt ++ (c!" " ++ (showCodec m.codec ++ (c!"/" ++ (dec m.clockRate ++ (showChannels m.channels ++ (nl ++ r)))))))) (.rtpMap pt m) r := by
    obtain ⟨m0, m1, m2, m3, m4, _⟩ := skip2 env c!"a=rtpmap:" (dec pt ++ (c!" " ++ (showCodec m.codec ++ (c!"/" ++ (dec m.clockRate ++ (showChannels m.channels ++ (nl ++ r)))))))
    refine Reads.tail (first_fails c!"a=rtpmap:" (dec pt ++ (c!" " ++ (showCodec m.codec ++ (c!"/" ++ (dec m.clockRate ++ (showChannels m.channels ++ (nl ++ r))))))) (by decide)) (Reads.head _ (Reads.attempt (Reads.tail (m0 (by decide)) (Reads.tail (m1 (by decide)) (Reads.tail (m2 (by decide)) (Reads.tail (m3 (by decide)) (Reads.tail (m4 (by decide)) (Reads.head _ (Reads.attempt ?_)))))))))
    exact rtpMap_reads pt m h r

theorem media_rtcpFb (env : Env Ip) (pt : Nat) (v : Str) (h : pt ≤ 127 ∧ Val v) (r : Str) :
    Reads (mediaAttrP env) (c!"a=rtcp-fb:" ++ (dec pt ++ (c!" " ++ (v ++ (nl ++ r))))) (.rtcpFb pt v) r := by
    obtain ⟨m0, m1, m2, m3, m4, m5, _⟩ := skip2 env c!"a=rtcp-fb:" (dec pt ++ (c!" " ++ (v ++ (nl ++ r))))
    refine Reads.tail (first_fails c!"a=rtcp-fb:" (dec pt ++ (c!" " ++ (v ++ (nl ++ r)))) (by decide)) (Reads.head _ (Reads.attempt (Reads.tail (m0 (by decide)) (Reads.tail (m1 (by decide)) (Reads.tail (m2 (by decide)) (Reads.tail (m3 (by decide)) (Reads.tail (m4 (by decide)) (Reads.tail (m5 (by decide)) (Reads.head _ (Reads.attempt ?_))))))))))
    exact rtcpFb_reads pt v h r

theorem media_fmtp (env : Env Ip) (pt : Nat) (vs : List FP) (hpt : pt ≤ 127) (hne : vs ≠ []) (h : ∀ v ∈ vs, v.Fits) (r : Str) :
    Reads (mediaAttrP env) (c!"a=fmtp:" ++ (dec pt ++ (c!" " ++ (join c!";" (vs.map FP.show) ++ (nl ++ r))))) (.fmtp pt (parsePairs env (vs.flatMap FP.pairs))) r := by
    obtain ⟨m0, m1, m2, m3, m4, m5, m6, _⟩ := skip2 env c!"a=fmtp:" (dec pt ++ (c!" " ++ (join c!";" (vs.map FP.show) ++ (nl ++ r))))
    refine Reads.tail (first_fails c!"a=fmtp:" (dec pt ++ (c!" " ++ (join c!";" (vs.map FP.show) ++ (nl ++ r)))) (by decide)) (Reads.head _ (Reads.attempt (Reads.tail (m0 (by decide)) (Reads.tail (m1 (by decide)) (Reads.tail (m2 (by decide)) (Reads.tail (m3 (by decide)) (Reads.tail (m4 (by decide)) (Reads.tail (m5 (by decide)) (Reads.tail (m6 (by decide)) (Reads.head _ (Reads.attempt ?_)))))))))))
    exact fmtp_reads env pt vs hpt hne h r

theorem media_rid (env : Env Ip) (henv : EnvOk env) (id : Str) (send : Bool) (rs : List (Str × Str)) (hid : RidText env id) (hr : ∀ p ∈ rs, Plain p.1 ∧ Plain p.2) (hp : ∀ p ∈ rs.head?, p.1.head? ≠ some 'p') (r : Str) :
    Reads (mediaAttrP env) (c!"a=rid:" ++ (id ++ (c!" " ++ ((if send then c!"send" else c!"recv") ++ (showRidRestr [] rs ++ (nl ++ r)))))) (.rid id send [] rs) r := by
    obtain ⟨m0, m1, m2, m3, m4, m5, m6, m7, _⟩ := skip2 env c!"a=rid:" (id ++ (c!" " ++ ((if send then c!"send" else c!"recv") ++ (showRidRestr [] rs ++ (nl ++ r)))))
    refine Reads.tail (first_fails c!"a=rid:" (id ++ (c!" " ++ ((if send then c!"send" else c!"recv") ++ (showRidRestr [] rs ++ (nl ++ r))))) (by decide)) (Reads.head _ (Reads.attempt (Reads.tail (m0 (by decide)) (Reads.tail (m1 (by decide)) (Reads.tail (m2 (by decide)) (Reads.tail (m3 (by decide)) (Reads.tail (m4 (by decide)) (Reads.tail (m5 (by decide)) (Reads.tail (m6 (by decide)) (Reads.tail (m7 (by decide)) (Reads.head _ (Reads.attempt ?_))))))))))))
    exact rid_reads env henv id send rs hid hr hp r

/-- What follows the name of a simulcast attribute -/
def simTail (s : Simulcast) (r : Str) : Str :=
  (if s.send = [] then [] else c!"send " ++ showGroups s.send) ++
    ((if s.recv = [] then [] else (if s.send = [] then [] else c!" ") ++ c!"recv " ++ showGroups s.recv) ++ (nl ++ r))

theorem sim_show (s : Simulcast) (hm : s.munged = false) (r : Str) : s.show ++ r = c!"a=simulcast:" ++ simTail s r := by
  unfold Simulcast.show simTail
  rw [if_neg (by simp [hm])]
  simp only [List.append_assoc]

theorem media_simulcast (env : Env Ip) (henv : EnvOk env) (s : Simulcast) (hm : s.munged = false) (h1 : s.send ≠ [] ∨ s.recv ≠ []) (h2 : ∀ l ∈ s.send ++ s.recv, LayerOk env l) (r : Str) :
    Reads (mediaAttrP env) (c!"a=simulcast:" ++ simTail s r) (.simulcast { s with send := s.send.map (fun l => { l with attributes := none }), recv := s.recv.map (fun l => { l with attributes := none }) }) r := by
    obtain ⟨m0, m1, m2, m3, m4, m5, m6, m7, m8, _⟩ := skip2 env c!"a=simulcast:" (simTail s r)
    refine Reads.tail (first_fails c!"a=simulcast:" (simTail s r) (by decide)) (Reads.head _ (Reads.attempt (Reads.tail (m0 (by decide)) (Reads.tail (m1 (by decide)) (Reads.tail (m2 (by decide)) (Reads.tail (m3 (by decide)) (Reads.tail (m4 (by decide)) (Reads.tail (m5 (by decide)) (Reads.tail (m6 (by decide)) (Reads.tail (m7 (by decide)) (Reads.tail (m8 (by decide)) (Reads.head _ (Reads.attempt ?_)))))))))))))
    rw [← sim_show s hm r]
    exact simulcast_reads env henv s hm h1 h2 r

theorem media_ssrcGroup (env : Env Ip) (sem : Str) (ns : List Nat) (h : Tok sem ∧ ns ≠ [] ∧ ∀ n ∈ ns, n < 2 ^ 32) (r : Str) :
    Reads (mediaAttrP env) (c!"a=ssrc-group:" ++ (sem ++ (c!" " ++ (join c!" " (ns.map dec) ++ (nl ++ r))))) (.ssrcGroup sem ns) r := by
    obtain ⟨m0, m1, m2, m3, m4, m5, m6, m7, m8, m9, _⟩ := skip2 env c!"a=ssrc-group:" (sem ++ (c!" " ++ (join c!" " (ns.map dec) ++ (nl ++ r))))
    refine Reads.tail (first_fails c!"a=ssrc-group:" (sem ++ (c!" " ++ (join c!" " (ns.map dec) ++ (nl ++ r)))) (by decide)) (Reads.head _ (Reads.attempt (Reads.tail (m0 (by decide)) (Reads.tail (m1 (by decide)) (Reads.tail (m2 (by decide)) (Reads.tail (m3 (by decide)) (Reads.tail (m4 (by decide)) (Reads.tail (m5 (by decide)) (Reads.tail (m6 (by decide)) (Reads.tail (m7 (by decide)) (Reads.tail (m8 (by decide)) (Reads.tail (m9 (by decide)) (Reads.head _ (Reads.attempt ?_))))))))))))))
    exact ssrcGroup_reads sem ns h r

theorem media_ssrc (env : Env Ip) (n : Nat) (a v : Str) (h : n < 2 ^ 32 ∧ a ≠ [] ∧ (∀ c ∈ a, c ≠ ':') ∧ Val v) (r : Str) :
    Reads (mediaAttrP env) (c!"a=ssrc:" ++ (dec n ++ (c!" " ++ (a ++ (c!":" ++ (v ++ (nl ++ r))))))) (.ssrc n a v) r := by
    obtain ⟨m0, m1, m2, m3, m4, m5, m6, m7, m8, m9, m10, _⟩ := skip2 env c!"a=ssrc:" (dec n ++ (c!" " ++ (a ++ (c!":" ++ (v ++ (nl ++ r))))))
    refine Reads.tail (first_fails c!"a=ssrc:" (dec n ++ (c!" " ++ (a ++ (c!":" ++ (v ++ (nl ++ r)))))) (by decide)) (Reads.head _ (Reads.attempt (Reads.tail (m0 (by decide)) (Reads.tail (m1 (by decide)) (Reads.tail (m2 (by decide)) (Reads.tail (m3 (by decide)) (Reads.tail (m4 (by decide)) (Reads.tail (m5 (by decide)) (Reads.tail (m6 (by decide)) (Reads.tail (m7 (by decide)) (Reads.tail (m8 (by decide)) (Reads.tail (m9 (by decide)) (Reads.tail (m10 (by decide)) (Reads.head _ (Reads.attempt ?_)))))))))))))))
    exact ssrc_reads n a v h r

end Str0m.Sdp
