import Verif.Model.Dial
/-!
# server.go:194-236, 341-408; ws/server/overlay.go:39-89; ws/client/conn.go:15-62: what a connection is wrapped in

`ListenAll` builds for every binding a listener out of layers; `Accept` of that listener sets the options of the socket and wraps the
connection. `DialConn` does the same at the client's side. TLS configurations are opaque numbers; socket options are recorded (whether the
system accepts them is not the code's business: failures are logged).
-/
namespace Qrpc

/-- The fields of `ServerBinding` that concern listening; `overlay`: the WebSocket overlay. -/
structure BindConf where
  overlay : Bool
  tls : Option Nat
  wbuf : Int
  rbuf : Int
deriving DecidableEq

inductive LnLayer where
  | keepAlive (secs : Nat) (wbuf rbuf : Int)   -- TCPKeepAliveListener
  | tls (conf : Nat)                           -- TLSKeepAliveListener, tls.NewListener
  | ws                                         -- qrpcOverWS
deriving DecidableEq, Repr

/-- server.go:191 -/
def defaultKeepAlive : Nat := 20

/-- server.go:210-232: the listener of a binding, innermost layer first. -/
def listenLayers (b : BindConf) : List LnLayer :=
  let kal := .keepAlive defaultKeepAlive b.wbuf b.rbuf
  if b.overlay then
    -- ws/server/overlay.go:41-43
    match b.tls with
    | some t => [kal, .tls t, .ws]
    | none => [kal, .ws]
  else match b.tls with
    | some t => [kal, .tls t]
    | none => [kal]

inductive SockOpt where
  | keepAlive | keepAlivePeriod (secs : Nat) | wbuf (n : Int) | rbuf (n : Int)
deriving DecidableEq, Repr

/-- What the bytes go through, innermost first. -/
inductive Wrap where
  | tls (conf : Nat) | ws
deriving DecidableEq, Repr

structure WrappedConn where
  opts : List SockOpt
  wraps : List Wrap
deriving DecidableEq, Repr

/-- One layer's Accept: server.go:374-408, 363-372 and tls.NewListener, ws/server/overlay.go:46-59, 80-84. -/
def LnLayer.accept (c : WrappedConn) : LnLayer → WrappedConn
  | .keepAlive secs w r =>
    let c := if 0 < secs then { c with opts := c.opts ++ [.keepAlive, .keepAlivePeriod secs] } else c
    let c := if 0 < w then { c with opts := c.opts ++ [.wbuf w] } else c
    if 0 < r then { c with opts := c.opts ++ [.rbuf r] } else c
  | .tls t => { c with wraps := c.wraps ++ [.tls t] }
  | .ws => { c with wraps := c.wraps ++ [.ws] }

/-- A TCP connection accepted on a binding. -/
def acceptOn (b : BindConf) : WrappedConn := (listenLayers b).foldl LnLayer.accept ⟨[], []⟩

/-- The client's side: `dialTCP` (clientconn.go:117-150) or `DialConn` (ws/client/conn.go:16-62; TLS if configured, below the
WebSocket), if everything succeeds. -/
def dialWraps (overlay : Bool) (d : DialConfig) : WrappedConn :=
  -- clientconn.go:124-136, ws/client/conn.go:29-44
  let opts := (if 0 < d.rbuf then [SockOpt.rbuf d.rbuf] else []) ++ (if 0 < d.wbuf then [SockOpt.wbuf d.wbuf] else [])
  if overlay then
    match d.tls with
    | some t => ⟨opts, [.tls t, .ws]⟩
    | none => ⟨opts, [.ws]⟩
  else match d.tls with
    | some t => ⟨opts, [.tls t]⟩
    | none => ⟨opts, []⟩

/-- The connection a dialling site makes, if everything succeeds. -/
def siteWraps (overlay : Bool) (c : ConnConfig) (site : DialSite) : WrappedConn :=
  dialWraps (dialOverlay overlay site) (dialConfig c site)

/-- When a dial ends, in nanoseconds after its start; `none`: never. `connect`: how long the TCP connection takes to be made (or
refused), `shake`: the TLS and HTTP handshakes together; `none`: for ever, the other side is silent. `net.DialTimeout` honours a positive timeout
(clientconn.go:118, ws/client/conn.go:24); `tlsConn.Handshake` (140) has no deadline and `websocket.Dialer` no `HandshakeTimeout`. -/
def dialEnds (overlay : Bool) (d : DialConfig) (connect : Option Nat) (shake : Option Nat) : Option Nat :=
  let shakes := overlay || d.tls.isSome
  let timedOut := match connect with
    | some t => decide (0 < d.dialTimeout ∧ d.dialTimeout.toNat < t)
    | none => decide (0 < d.dialTimeout)
  if timedOut then some d.dialTimeout.toNat
  else match connect with
    | none => none
    | some t =>
      if shakes then match shake with
        | some h => some (t + h)
        | none => none
      else some t

end Qrpc
