import Verif.Model.KeyList
import Verif.Tests.Stream
/-
The tests of tests/test_key.py, on the model.  What is outside the repository does not matter here:
the theorems hold for every `ext`.
-/
namespace OSK

/-- test_key.py:34-36 -/
def tEdHeader : VDict :=
  [(py! "key_type", .str (py! "ssh-ed25519"))]

/-- test_key.py:38-42 -/
def tEdPublic : VDict :=
  [(py! "public", .bytes [39, 81, 231, 210, 186, 67, 130, 9, 136, 209, 176, 95, 44, 50, 46, 155, 251, 67, 44, 99, 62, 109, 188, 51, 126, 127, 5, 213, 97, 38, 195, 163])]

/-- test_key.py:44-52 -/
def tEdPrivate : VDict :=
  [(py! "private_public", .bytes [215, 131, 191, 168, 126, 199, 103, 192, 218, 243, 93, 100, 163, 238, 181, 145, 54, 156, 171, 68, 13, 168, 193, 197, 221, 171, 23, 86, 176, 58, 200, 171, 39, 81, 231, 210, 186, 67, 130, 9, 136, 209, 176, 95, 44, 50, 46, 155, 251, 67, 44, 99, 62, 109, 188, 51, 126, 127, 5, 213, 97, 38, 195, 163]),
   (py! "public", .bytes [39, 81, 231, 210, 186, 67, 130, 9, 136, 209, 176, 95, 44, 50, 46, 155, 251, 67, 44, 99, 62, 109, 188, 51, 126, 127, 5, 213, 97, 38, 195, 163])]

/-- test_key.py:54-56 -/
def tFooter : VDict :=
  [(py! "comment", .str (py! "comment"))]

/-- test_key.py:58-60 -/
def tRsaHeader : VDict :=
  [(py! "key_type", .str (py! "ssh-rsa"))]

/-- test_key.py:62-76 -/
def tRsaPublic : VDict :=
  [(py! "e", .int 65537),
   (py! "n", .int 22833053504904154459389555875086011925877091961960955705861783493019315221189120363317580685288021091497919773654925550564812490796803771282024780163967422554209751277688842112311576430071315351828702546213848973862817522673806808405949773757009590610580586272025555434425135640999935536685062998675329937670482024388465109442165488688760736271073344883895457879548132789906779877595971745076044768949110090849651020745102646404004325359755499017200188217124698379610854430469218406750035681701070768737312867205567453738732358434468964595741034787407468538158504719157425665152240873255314150689127380129563432352431)]

/-- test_key.py:78-125 -/
def tRsaPrivate : VDict :=
  [(py! "d", .int 12687662076202673191442840781589137377430551565966280481870829752129093525947849249598491475290810749486240511423950192638033118350659977398683131959522126846768337157324786963151359977629538904245630111623506386944202904057433549624173717303340376600477794379790876180714102943959818918160122361761439955141903513046455598694804969967834116707186367556150416819452038707249556775999958762581669020177063675587898653347345482336901143410088427284121327143109415407738336445383809844276198318274273081216177855411348210858605402521346426871130324038611538768699912108553080338858580245272655097723658862898101516632945),
   (py! "e", .int 65537),
   (py! "iqmp", .int 12419130393490411154664504416813494900537282233758869183953819910342299114260708527396132668974729868938802898452708601517767672181977384084439195188009597044767142184337119975013653856219597142339113396846772606952275859663855631047289249591295763559595567333065635860785686188030805670201190489445471058341),
   (py! "n", .int 22833053504904154459389555875086011925877091961960955705861783493019315221189120363317580685288021091497919773654925550564812490796803771282024780163967422554209751277688842112311576430071315351828702546213848973862817522673806808405949773757009590610580586272025555434425135640999935536685062998675329937670482024388465109442165488688760736271073344883895457879548132789906779877595971745076044768949110090849651020745102646404004325359755499017200188217124698379610854430469218406750035681701070768737312867205567453738732358434468964595741034787407468538158504719157425665152240873255314150689127380129563432352431),
   (py! "p", .int 156859864290944215079044468160464707356176823578818849761827533392313072171894887304379426456356759660669459706418971575856591753051411658256077408456111567225244218205396756138949662433706914228285937950159417816615341515806573676199207625643729598090185637434898215022254811579944390223997250026710246369833),
   (py! "q", .int 145563389386550331256658220052601337205567145155316924823560913020653409792660282454784694022417441164978649090280981692703017247120232046330237700560786675720114547570992868330030216078165542630930213158707931711434581104578837143742940748317150360990247305951782299025425731762581855379169427745358634109207)]

/-- Nothing depends on what is outside the repository. -/
def tExt : Ext := ⟨fun _ _ => false, fun _ => []⟩

/-- The bytes of `correct_public_key_bytes_ed25519`, …: header, parameters and footer, written one after
the other (test_key.py:128-145). -/
def tBytes (kind : Kind) (c : Cls) (header params footer : VDict) : Except Exn Bytes :=
  written do
    writeDict (headerFmt kind) header
    writeDict (formatOf c) params
    writeDict (footerFmt kind) footer

/-- test_key.py:128-145 -/
def tEdPubBytes : Bytes := (tBytes .pub .ed25519Pub tEdHeader tEdPublic []).toOption.getD []
/-- test_key.py:148-166 -/
def tEdPrivBytes : Bytes := (tBytes .priv .ed25519Priv tEdHeader tEdPrivate tFooter).toOption.getD []
/-- test_key.py:169-186 -/
def tRsaPubBytes : Bytes := (tBytes .pub .rsaPub tRsaHeader tRsaPublic []).toOption.getD []
/-- test_key.py:189-207 -/
def tRsaPrivBytes : Bytes := (tBytes .priv .rsaPriv tRsaHeader tRsaPrivate tFooter).toOption.getD []

/-- The public key object of the tests (test_key.py:252-256). -/
def tPublicKey : Key := ⟨.pub, tEdHeader, ⟨.ed25519Pub, tEdPublic⟩, [], []⟩
/-- The private key object of the tests. -/
def tPrivateKey : Key := ⟨.priv, tEdHeader, ⟨.ed25519Priv, tEdPrivate⟩, tFooter, []⟩

/-- Equal attributes (dictionaries are equal whatever their order), and the same class of parameters. -/
def sameKey (a b : Key) : Bool := Key.eq a b && decide (a.params.cls = b.params.cls)

/-- `assert` on the key a call returns; no warning is expected. -/
def returnsKey (x : Eff Key) (k : Key) : Bool :=
  match x.res with
  | .ok b => sameKey b k && x.log.isEmpty
  | .error _ => false

/-- `with pytest.warns(UserWarning, match=…)` around a call. -/
def warns {α : Type} (x : Eff α) (w : Warning) : Bool :=
  match x.res with
  | .ok _ => decide (Event.warn w ∈ x.log)
  | .error _ => false

/-- The same, and `assert` on the key that the call returns. -/
def warnsReturns (x : Eff Key) (w : Warning) (k : Key) : Bool :=
  match x.res with
  | .ok b => sameKey b k && decide (Event.warn w ∈ x.log)
  | .error _ => false

/-- Header, parameters and footer read from bytes are the given ones (test_key.py:302-314). -/
def readBack (kind : Kind) (c : Cls) (b : Except Exn Bytes) (h p f : VDict) : Bool :=
  match b with
  | .error _ => false
  | .ok b =>
    match ((do
      let h' ← readDict (headerFmt kind)
      let p' ← readDict (formatOf c)
      let f' ← readDict (footerFmt kind)
      pure (deq h' h && deq p' p && deq f' f) : SM Bool) (Stream.of b)).1 with
    | .ok r => r
    | .error _ => false

/-- test_key.py:12-15 -/
theorem C115_key_public_key_header_format_instructions_dict :
    headerFmt .pub = [(py! "key_type", .pascal .string)] := by
  decide +kernel

/-- test_key.py:18-19 -/
theorem C115_key_public_key_footer_format_instructions_dict :
    footerFmt .pub = [] := by
  decide +kernel

/-- test_key.py:22-25 -/
theorem C115_key_private_key_header_format_instructions_dict :
    headerFmt .priv = [(py! "key_type", .pascal .string)] := by
  decide +kernel

/-- test_key.py:28-31 -/
theorem C115_key_private_key_footer_format_instructions_dict :
    footerFmt .priv = [(py! "comment", .pascal .string)] := by
  decide +kernel

/-- test_key.py:210-218 -/
theorem C115_key_public_key_init :
    returnsKey (mkKey tExt .pub tEdHeader tEdPublic [] none) tPublicKey := by
  decide +kernel

/-- test_key.py:221-227 -/
theorem C115_key_public_key_from_byte_stream :
    returnsKey (fromByteStream tExt .pub none (Stream.of tEdPubBytes)).1 tPublicKey := by
  decide +kernel

/-- test_key.py:230-236 -/
theorem C115_key_public_key_from_bytes :
    returnsKey (fromBytes tExt .pub tEdPubBytes none) tPublicKey := by
  decide +kernel

/-- test_key.py:239-249 -/
theorem C115_key_public_key_from_bytes_remainder :
    warnsReturns (fromBytes tExt .pub (tEdPubBytes ++ [0]) none) .excessBytes
      { tPublicKey with clear := [(py! "remainder", .bytes [0])] } := by
  decide +kernel

/-- test_key.py:259-273 -/
theorem C115_key_public_key_from_string :
    (match packPublicBytes tPublicKey with
     | .ok b => returnsKey (fromString tExt .pub (py! "ssh-ed25519 " ++ b64encodeStr b ++ py! " comment with multiple words"))
        { tPublicKey with clear := [(py! "key_type", .str (py! "ssh-ed25519")), (py! "comment", .str (py! "comment with multiple words"))] }
     | .error _ => false) = true := by
  decide +kernel

/-- test_key.py:276-294 -/
theorem C115_key_public_key_from_string_inconsistent_key_type :
    (match packPublicBytes tPublicKey with
     | .ok b => warnsReturns (fromString tExt .pub (py! "ssh-rsa " ++ b64encodeStr b ++ py! " comment")) .clearTypeMismatch
        { tPublicKey with clear := [(py! "key_type", .str (py! "ssh-rsa")), (py! "comment", .str (py! "comment"))] }
     | .error _ => false) = true := by
  decide +kernel

/-- test_key.py:297-299 -/
theorem C115_key_public_key_from_string_not_a_key :
    raises (fromString tExt .pub (py! "insufficient tokens")).res Exn.isValueError := by
  decide +kernel

/-- test_key.py:302-314 -/
theorem C115_key_public_key_pack_public_bytes :
    readBack .pub .ed25519Pub (packPublicBytes tPublicKey) tEdHeader tEdPublic [] := by
  decide +kernel

/-- test_key.py:317-323 -/
theorem C115_key_public_key_pack_public_string :
    packPublicString tExt tPublicKey true true =
      (packPublicBytes tPublicKey).map (fun b => py! "ssh-ed25519 " ++ b64encodeStr b ++ py! "\n") := by
  decide +kernel

/-- test_key.py:326-339 -/
theorem C115_key_public_key_pack_public_string_clear_comment :
    packPublicString tExt { tPublicKey with clear := [(py! "key_type", .str (py! "ssh-ed25519")), (py! "comment", .str (py! "comment with multiple words"))] } true true =
      (packPublicBytes tPublicKey).map (fun b => py! "ssh-ed25519 " ++ b64encodeStr b ++ py! " comment with multiple words\n") := by
  decide +kernel

/-- test_key.py:342-354 -/
theorem C115_key_public_key_pack_public_string_no_clear_comment :
    packPublicString tExt { tPublicKey with clear := [(py! "key_type", .str (py! "ssh-ed25519")), (py! "comment", .str (py! "comment with multiple words"))] } true false =
      (packPublicBytes tPublicKey).map (fun b => py! "ssh-ed25519 " ++ b64encodeStr b ++ py! "\n") := by
  decide +kernel

/-- test_key.py:357-365 -/
theorem C115_key_private_key_init :
    returnsKey (mkKey tExt .priv tEdHeader tEdPrivate tFooter none) tPrivateKey := by
  decide +kernel

/-- test_key.py:368-374 -/
theorem C115_key_private_key_init_invalid_footer :
    warnsReturns (mkKey tExt .priv tEdHeader tEdPrivate [] none) (.missing (py! "comment"))
      { tPrivateKey with footer := [] } := by
  decide +kernel

/-- test_key.py:377-383 -/
theorem C115_key_private_key_from_byte_stream :
    returnsKey (fromByteStream tExt .priv none (Stream.of tEdPrivBytes)).1 tPrivateKey := by
  decide +kernel

/-- test_key.py:386-392 -/
theorem C115_key_private_key_from_bytes :
    returnsKey (fromBytes tExt .priv tEdPrivBytes none) tPrivateKey := by
  decide +kernel

/-- test_key.py:395-407 -/
theorem C115_key_private_key_pack_public :
    readBack .pub .ed25519Pub (packPublicBytes tPrivateKey) tEdHeader tEdPublic [] := by
  decide +kernel

/-- test_key.py:410-422 -/
theorem C115_key_private_key_pack_private_bytes :
    readBack .priv .ed25519Priv (packPrivateBytes tPrivateKey) tEdHeader tEdPrivate tFooter := by
  decide +kernel

/-- test_key.py:425-432 -/
theorem C115_key_private_key_pack_public_string :
    packPublicString tExt tPrivateKey true true =
      (packPublicBytes tPrivateKey).map (fun b => py! "ssh-ed25519 " ++ b64encodeStr b ++ py! " comment\n") := by
  decide +kernel

/-- test_key.py:435-444 -/
theorem C115_key_private_key_pack_public_string_footer_comment :
    packPublicString tExt tPrivateKey true true =
      (packPublicBytes tPrivateKey).map (fun b => py! "ssh-ed25519 " ++ b64encodeStr b ++ py! " comment\n") := by
  decide +kernel

/-- test_key.py:447-455 -/
theorem C115_key_private_key_pack_public_string_no_footer_comment :
    packPublicString tExt tPrivateKey false true =
      (packPublicBytes tPrivateKey).map (fun b => py! "ssh-ed25519 " ++ b64encodeStr b ++ py! "\n") := by
  decide +kernel

/-- The RSA keys that the tests of key lists use are read back, too. -/
theorem C115_key_rsa :
    returnsKey (fromBytes tExt .pub tRsaPubBytes none) ⟨.pub, tRsaHeader, ⟨.rsaPub, tRsaPublic⟩, [], []⟩ ∧
    (fromBytes tExt .priv tRsaPrivBytes none).log = [] := by
  decide +kernel

end OSK
