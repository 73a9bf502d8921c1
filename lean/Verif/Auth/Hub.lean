import Verif.Auth.Model
/-
Model of the connection of a gateway to JupyterHub: dask-gateway-server/dask_gateway_server/auth.py:301-316, 361-428.

The TLS of Python and aiohttp is not part of the repository and is modelled from memory: `PROTOCOL_TLS_CLIENT` asks for a
certificate that one of the loaded authorities signed, and loads none by itself; without a context aiohttp asks for one that an
authority of the system signed. Names in certificates, redirects and cookies of the hub are not modelled, nor schemes of URLs in
capital letters.
-/
namespace Verif.Auth

/-- The settings (auth.py:301-316, 361-389); `url` is `none` if it is not configured. -/
structure HubConn where
  url : Option Str
  tlsKey : Str
  tlsCert : Str
  tlsCa : Str
  hub : HubCfg

/-- `self.ssl_context` (auth.py:391-402): `None`, or a context with the authorities that were loaded. -/
inductive Ssl where
  | system
  | context (ca : Option Str)
  deriving DecidableEq

/-- auth.py:391-402 `setup`, given which files can be loaded; `none`: it raises, and the gateway does not start. -/
def HubConn.setup (c : HubConn) (loads : Str → Bool) : Option Ssl :=
  if c.tlsCert ≠ [] ∧ c.tlsKey ≠ [] then
    if loads c.tlsCert && loads c.tlsKey then
      if c.tlsCa ≠ [] then
        if loads c.tlsCa then some (.context (some c.tlsCa)) else none
      else some (.context none)
    else none
  else some .system

/-- auth.py:311-316 `jupyterhub_api_url` with its default; `none` is the `ValueError`, which comes with the first use. -/
def HubConn.apiUrl (c : HubConn) (env : Str → Option Str) : Option Str :=
  match c.url with
  | some u => some u
  | none =>
    match env "JUPYTERHUB_API_URL".toList with
    | none => none
    | some [] => none
    | some u => some u

/-- Who signed the certificate of a server (auth.py:396-399, 425). -/
inductive Authority where
  | system
  | file (path : Str)
  deriving DecidableEq

/-- What answers at some URL (auth.py:428). -/
structure HubServer where
  signers : List Authority
  reply : Str → HubReply

/-- Whether a TLS connection comes about (auth.py:396-402, 425, 428). -/
def Ssl.accepts (s : Ssl) (server : HubServer) : Bool :=
  match s with
  | .system => server.signers.contains .system
  | .context none => false
  | .context (some ca) => server.signers.contains (.file ca)

/-- Whether the scheme of a URL is that of TLS (auth.py:428). -/
def isHttps (url : Str) : Bool := "https://".toList.isPrefixOf url

/-- auth.py:416-484 `authenticate`, with the connection to the hub: an exception is answered with 500. -/
def HubConn.authenticate (c : HubConn) (ssl : Ssl) (env : Str → Option Str) (net : Str → Option HubServer) (header : Option Str) :
    Outcome :=
  match hubToken header with
  | none => .fail 500
  | some none => .fail 401
  | some (some _) =>
    match c.apiUrl env with
    | none => .fail 500
    | some base =>
      let url := base ++ "/user".toList
      match net url with
      | none => .fail 500
      | some server =>
        if isHttps url && !ssl.accepts server then .fail 500
        else hubAuthenticate c.hub header server.reply

end Verif.Auth
