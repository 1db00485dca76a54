/-!
# /repo/src/siotls/iana.py

Enumerations are represented by their integer values: `IntEnum` members compare, hash and
serialize as integers. `knownX n` says that `X(n)` does not raise ValueError.
-/

namespace Siotls.Iana

/-- iana.py:24-50 `AlertDescription` -/
def alertDescriptions : List Nat :=
  [0, 10, 20, 22, 40, 42, 43, 44, 45, 46, 47, 48, 49, 50, 51, 70, 71, 80, 86, 90, 109, 110,
   112, 113, 115, 116, 120]

/-- the registered alert classes that are not `TLSFatalAlert`: CloseNotify (alerts.py:97-104)
and UserCanceled (alerts.py, class UserCanceled). -/
def warningAlerts : List Nat := [0, 90]

abbrev closeNotify := 0
abbrev unexpectedMessage := 10
abbrev recordOverflow := 22
abbrev handshakeFailure := 40
abbrev badCertificate := 42
abbrev unsupportedCertificate := 43
abbrev certificateUnknown := 46
abbrev illegalParameter := 47
abbrev decodeError := 50
abbrev decryptError := 51
abbrev protocolVersion := 70
abbrev insufficientSecurity := 71
abbrev internalError := 80
abbrev userCanceled := 90
abbrev missingExtension := 109
abbrev unsupportedExtension := 110
abbrev unrecognizedName := 112
abbrev noApplicationProtocol := 120

/-- iana.py `AlertLevel` -/
abbrev warning := 1
abbrev fatal := 2

/-- iana.py `ContentType` -/
abbrev ctInvalid := 0
abbrev ctChangeCipherSpec := 20
abbrev ctAlert := 21
abbrev ctHandshake := 22
abbrev ctApplicationData := 23
abbrev ctHeartbeat := 24

/-- iana.py `HandshakeType` -/
abbrev htClientHello := 1
abbrev htServerHello := 2
abbrev htNewSessionTicket := 4
abbrev htEndOfEarlyData := 5
abbrev htEncryptedExtensions := 8
abbrev htCertificate := 11
abbrev htCertificateRequest := 13
abbrev htCertificateVerify := 15
abbrev htFinished := 20
abbrev htKeyUpdate := 24
abbrev htMessageHash := 254

/-- iana.py `ExtensionType` -/
abbrev extServerName := 0
abbrev extMaxFragmentLength := 1
abbrev extStatusRequest := 5
abbrev extSupportedGroups := 10
abbrev extSignatureAlgorithms := 13
abbrev extUseSrtp := 14
abbrev extHeartbeat := 15
abbrev extAlpn := 16
abbrev extSct := 18
abbrev extClientCertificateType := 19
abbrev extServerCertificateType := 20
abbrev extPadding := 21
abbrev extPreSharedKey := 41
abbrev extEarlyData := 42
abbrev extSupportedVersions := 43
abbrev extCookie := 44
abbrev extPskKeyExchangeModes := 45
abbrev extCertificateAuthorities := 47
abbrev extOidFilters := 48
abbrev extPostHandshakeAuth := 49
abbrev extSignatureAlgorithmsCert := 50
abbrev extKeyShare := 51

/-- iana.py `ExtensionType` -/
def extensionTypes : List Nat :=
  [0, 1, 5, 10, 13, 14, 15, 16, 18, 19, 20, 21, 41, 42, 43, 44, 45, 47, 48, 49, 50, 51]

/-- iana.py `NamedGroup` -/
def namedGroups : List Nat :=
  [0x17, 0x18, 0x19, 0x1D, 0x1E, 0x100, 0x101, 0x102, 0x103, 0x104]

/-- iana.py `TLSVersion` -/
def tlsVersions : List Nat := [0x0301, 0x0302, 0x0303, 0x0304]
abbrev tls12 := 0x0303
abbrev tls13 := 0x0304

/-- iana.py `CertificateType` -/
def certificateTypes : List Nat := [0, 1, 2, 3]
abbrev x509 := 0
abbrev rawPublicKey := 2

/-- iana.py `HeartbeatMode` / `HeartbeatMessageType` -/
def heartbeatModes : List Nat := [1, 2]
abbrev peerAllowedToSend := 1
abbrev peerNotAllowedToSend := 2

/-- iana.py `MaxFragmentLengthCode` -/
def mflCodes : List Nat := [1, 2, 3, 4]

/-- iana.py `MaxFragmentLengthCode.to_octets` -/
def mflOctets : Nat → Nat
  | 1 => 512
  | 2 => 1024
  | 3 => 2048
  | 4 => 4096
  | _ => 0

/-- iana.py `MaxFragmentLengthOctets.to_code`; `none` is the KeyError of MAX_16384. -/
def mflCode : Nat → Option Nat
  | 512 => some 1
  | 1024 => some 2
  | 2048 => some 3
  | 4096 => some 4
  | _ => none

end Siotls.Iana
