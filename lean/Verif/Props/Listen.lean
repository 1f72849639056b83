import Verif.Model.Listen
/-! # Properties C100 (configured wrapping), C101 (dial timeout) -/
namespace Qrpc

/-- What a configuration asks for: TLS with that configuration, below the WebSocket. -/
def Spec.wraps (overlay : Bool) (tls : Option Nat) : List Wrap :=
  tls.toList.map .tls ++ (if overlay then [.ws] else [])

/-- Two ends understand each other: the same layers; TLS configurations need not be equal (certificates are not modelled). -/
def Spec.sameKind : List Wrap → List Wrap → Prop
  | [], [] => True
  | .tls _ :: a, .tls _ :: b => sameKind a b
  | .ws :: a, .ws :: b => sameKind a b
  | _, _ => False

/-- **C100, server.** Whatever the binding, an accepted connection is wrapped in exactly what the binding asks for, keep-alive is on with
20 seconds, and buffer sizes are set if and only if they are positive, to the configured values. -/
theorem C100_server (b : BindConf) :
    (acceptOn b).wraps = Spec.wraps b.overlay b.tls ∧
    SockOpt.keepAlive ∈ (acceptOn b).opts ∧ (∀ n, SockOpt.keepAlivePeriod n ∈ (acceptOn b).opts ↔ n = 20) ∧
    (∀ n, SockOpt.wbuf n ∈ (acceptOn b).opts ↔ n = b.wbuf ∧ 0 < b.wbuf) ∧
    (∀ n, SockOpt.rbuf n ∈ (acceptOn b).opts ↔ n = b.rbuf ∧ 0 < b.rbuf) := by
  obtain ⟨o, t, w, r⟩ := b
  have hd : (0 < defaultKeepAlive) := by decide
  have h20 : defaultKeepAlive = 20 := rfl
  cases o <;> cases t <;> by_cases hw : 0 < w <;> by_cases hr : 0 < r <;>
    simp [acceptOn, listenLayers, LnLayer.accept, Spec.wraps, hw, hr, hd, h20]

/-- **C100, both ends (partial).** A connection dialled by `NewConnection` meets the server's end if and only if both use the
overlay or neither, and both use TLS or neither; buffer sizes as on the server. -/
theorem C100_partial (overlay : Bool) (c : ConnConfig) (b : BindConf) :
    (Spec.sameKind (siteWraps overlay c .newConnection).wraps (acceptOn b).wraps ↔
      overlay = b.overlay ∧ c.tls.isSome = b.tls.isSome) ∧
    (siteWraps overlay c .newConnection).wraps = Spec.wraps overlay c.tls ∧
    (∀ site n, site ≠ .newReused → (SockOpt.wbuf n ∈ (siteWraps overlay c site).opts ↔ n = c.wbuf ∧ 0 < c.wbuf)) ∧
    (∀ site n, site ≠ .newReused → (SockOpt.rbuf n ∈ (siteWraps overlay c site).opts ↔ n = c.rbuf ∧ 0 < c.rbuf)) := by
  rw [(C100_server b).1]
  refine ⟨?_, ?_, ?_, ?_⟩
  · obtain ⟨o, t, w, r⟩ := b
    obtain ⟨dt, w', r', t'⟩ := c
    cases overlay <;> cases o <;> cases t <;> cases t' <;> simp [siteWraps, dialOverlay, dialWraps, dialConfig, Spec.wraps, Spec.sameKind]
  · obtain ⟨dt, w', r', t'⟩ := c
    cases overlay <;> cases t' <;> simp [siteWraps, dialOverlay, dialWraps, dialConfig, Spec.wraps]
  all_goals
    intro site n hsite
    obtain ⟨dt, w', r', t'⟩ := c
    by_cases hw : 0 < w' <;> by_cases hr : 0 < r' <;> cases overlay <;> cases t' <;> cases site <;> (first | exact absurd rfl hsite | skip) <;>
      simp [siteWraps, dialOverlay, dialWraps, dialConfig, hw, hr]

/-- **C100 is false of the code** for connections that reconnect: with TLS configured on both sides they never meet (C47). -/
theorem C100_refuted (overlay : Bool) (c : ConnConfig) (b : BindConf) (hb : b.tls.isSome = true) :
    ¬ Spec.sameKind (siteWraps overlay c .newReconnect).wraps (acceptOn b).wraps ∧
    ¬ Spec.sameKind (siteWraps overlay c .connect).wraps (acceptOn b).wraps := by
  rw [(C100_server b).1]
  obtain ⟨o, t, w, r⟩ := b
  cases t with
  | none => cases hb
  | some t => cases overlay <;> cases o <;> simp [siteWraps, dialOverlay, dialWraps, dialConfig, Spec.wraps, Spec.sameKind]

/-- **C100, connections with reconnect.** The first dial and every later one use the overlay if and only if one is configured, and no
TLS. So they meet exactly the bindings without TLS that use the overlay as they do. -/
theorem C100_reconnect_partial (overlay : Bool) (c : ConnConfig) (b : BindConf) (site : DialSite) (h : site = .newReconnect ∨ site = .connect) :
    (siteWraps overlay c site).wraps = Spec.wraps overlay none ∧
    (Spec.sameKind (siteWraps overlay c site).wraps (acceptOn b).wraps ↔ overlay = b.overlay ∧ b.tls = none) := by
  rw [(C100_server b).1]
  obtain ⟨o, t, w, r⟩ := b
  rcases h with rfl | rfl <;> cases t <;> cases overlay <;> cases o <;>
    simp [siteWraps, dialOverlay, dialWraps, dialConfig, Spec.wraps, Spec.sameKind]

/-- A reconnecting client with the overlay and a binding with it, both without TLS. -/
example : Spec.sameKind (siteWraps true ⟨5, 0, 0, none⟩ .connect).wraps (acceptOn ⟨true, none, 0, 0⟩).wraps :=
  (C100_reconnect_partial true _ _ .connect (.inr rfl)).2.mpr ⟨rfl, rfl⟩

/-- **C100 is false of the code** for `NewReusedConnection` ("like NewConnection except the underlying socket can be reused"): it
drops TLS, overlay and buffer sizes alike, so it meets exactly the bindings that use neither. -/
theorem C100_refuted_reused (overlay : Bool) (c : ConnConfig) (b : BindConf) :
    siteWraps overlay c .newReused = ⟨[], []⟩ ∧
    (Spec.sameKind (siteWraps overlay c .newReused).wraps (acceptOn b).wraps ↔ b.overlay = false ∧ b.tls = none) := by
  rw [(C100_server b).1]
  obtain ⟨o, t, w, r⟩ := b
  cases t <;> cases overlay <;> cases o <;> simp [siteWraps, dialOverlay, dialWraps, dialConfig, Spec.wraps, Spec.sameKind]

/-- **C101 (partial).** A dial without TLS and overlay ends within a positive timeout, whatever the network does. -/
theorem C101_partial (d : DialConfig) (ht : d.tls = none) (hp : 0 < d.dialTimeout) (connect shake : Option Nat) :
    ∃ t, dialEnds false d connect shake = some t ∧ (t : Int) ≤ d.dialTimeout := by
  cases connect with
  | none => exact ⟨d.dialTimeout.toNat, by simp [dialEnds, hp], by omega⟩
  | some t =>
    by_cases h : d.dialTimeout.toNat < t
    · exact ⟨d.dialTimeout.toNat, by simp [dialEnds, hp, h], by omega⟩
    · exact ⟨t, by simp [dialEnds, h, ht], by omega⟩

/-- **C101 is false of the code** with TLS or the overlay: if the other side accepts the TCP connection in time and then stays
silent, the dial never ends, whatever the timeout. -/
theorem C101_refuted (overlay : Bool) (d : DialConfig) (h : overlay = true ∨ d.tls.isSome = true) (t : Nat) (ht : (t : Int) ≤ d.dialTimeout) :
    dialEnds overlay d (some t) none = none := by
  have h1 : ¬ (0 < d.dialTimeout ∧ d.dialTimeout.toNat < t) := by omega
  rcases h with rfl | h <;> simp [dialEnds, h1, *]

example : (acceptOn ⟨true, some 7, 4096, 0⟩) = ⟨[.keepAlive, .keepAlivePeriod 20, .wbuf 4096], [.tls 7, .ws]⟩ := by decide

example : Spec.sameKind (siteWraps true ⟨0, 0, 0, some 3⟩ .newConnection).wraps (acceptOn ⟨true, some 7, 4096, 0⟩).wraps :=
  (C100_partial true ⟨0, 0, 0, some 3⟩ ⟨true, some 7, 4096, 0⟩).1.2 ⟨rfl, rfl⟩

example : ¬ Spec.sameKind (siteWraps true ⟨0, 0, 0, some 3⟩ .connect).wraps (acceptOn ⟨true, some 7, 4096, 0⟩).wraps :=
  (C100_refuted true ⟨0, 0, 0, some 3⟩ ⟨true, some 7, 4096, 0⟩ rfl).2

example : (siteWraps true ⟨0, 64, 0, some 3⟩ .newReused, siteWraps true ⟨0, 64, 0, some 3⟩ .newConnection) =
    (⟨[], []⟩, ⟨[.wbuf 64], [.tls 3, .ws]⟩) := by decide

example : dialEnds false ⟨1000, 0, 0, none⟩ none (some 5) = some 1000 ∧ dialEnds false ⟨1000, 0, 0, none⟩ (some 30) none = some 30 := by decide
example : dialEnds false ⟨1000, 0, 0, some 1⟩ (some 30) none = none := C101_refuted false _ (.inr rfl) 30 (by decide)

end Qrpc
