import Verif.Basic

/-! # Specification vocabulary: after which statuses to close the connection, for C106 -/

namespace CoreHttp.Spec
open CoreHttp

/-- "The application should close the connection with the server if any of the following errors are returned"
(source/include/core_http_client.h:855-862). -/
def saysClose : List Status :=
  [.extraneousResponseData, .invalidChunkHeader, .invalidProtocolVersion, .invalidStatusCode, .invalidCharacter, .invalidContentLength]

end CoreHttp.Spec
