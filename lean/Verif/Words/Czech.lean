import Verif.Words.Basic

/-! Generated from /repo/wordlists.go, lines 12311-14360: each word is its UTF-8 bytes read as one
big-endian number (`0x61626c65` is "able"); the word is in the comment. -/

namespace Btc

set_option maxRecDepth 20000 in
/-- wordlists.go:12311-14360 `CzechWordlist`, in order, packed. -/
def CzechWordlistPacked : List Nat := [
  0x616264696b616365, -- abdikace
  0x61626563656461, -- abeceda
  0x616472657361, -- adresa
  0x616772657365, -- agrese
  0x616b6365, -- akce
  0x616b746f766b61, -- aktovka
  0x616c656a, -- alej
  0x616c6b6f686f6c, -- alkohol
  0x616d707574616365, -- amputace
  0x616e616e6173, -- ananas
  0x616e64756c6b61, -- andulka
  0x616e656b646f7461, -- anekdota
  0x616e6b657461, -- anketa
  0x616e74696b61, -- antika
  0x616e756c6f766174, -- anulovat
  0x6172636861, -- archa
  0x61726f67616e6365, -- arogance
  0x617366616c74, -- asfalt
  0x6173697374656e74, -- asistent
  0x6173706972616365, -- aspirace
  0x6173746d61, -- astma
  0x617374726f6e6f6d, -- astronom
  0x61746c6173, -- atlas
  0x61746c6574696b61, -- atletika
  0x61746f6c, -- atol
  0x6175746f627573, -- autobus
  0x617a796c, -- azyl
  0x6261626b61, -- babka
  0x626163686f72, -- bachor
  0x626163696c, -- bacil
  0x626163756c6b61, -- baculka
  0x6261646174656c, -- badatel
  0x626167657461, -- bageta
  0x62616772, -- bagr
  0x6261686e6f, -- bahno
  0x62616b7465726965, -- bakterie
  0x62616c616461, -- balada
  0x62616c65746b61, -- baletka
  0x62616c6b6f6e, -- balkon
  0x62616c6f6e656b, -- balonek
  0x62616c76616e, -- balvan
  0x62616c7a61, -- balza
  0x62616d627573, -- bambus
  0x62616e6b6f6d6174, -- bankomat
  0x626172626172, -- barbar
  0x6261726574, -- baret
  0x6261726d616e, -- barman
  0x6261726f6b6f, -- baroko
  0x6261727661, -- barva
  0x62617465726b61, -- baterka
  0x6261746f68, -- batoh
  0x6261766c6e61, -- bavlna
  0x62617a616c6b61, -- bazalka
  0x62617a696c696b61, -- bazilika
  0x62617a756b61, -- bazuka
  0x6265646e61, -- bedna
  0x626572616e, -- beran
  0x626573656461, -- beseda
  0x626573746965, -- bestie
  0x6265746f6e, -- beton
  0x62657a696e6b61, -- bezinka
  0x62657a6d6f63, -- bezmoc
  0x62657a74616b, -- beztak
  0x626963796b6c, -- bicykl
  0x6269646c6f, -- bidlo
  0x62696674656b, -- biftek
  0x62696b696e79, -- bikiny
  0x62696c616e6365, -- bilance
  0x62696f67726166, -- biograf
  0x62696f6c6f67, -- biolog
  0x6269747661, -- bitva
  0x62697a6f6e, -- bizon
  0x626c61686f627974, -- blahobyt
  0x626c61746f756368, -- blatouch
  0x626c65636861, -- blecha
  0x626c6564756c65, -- bledule
  0x626c65736b, -- blesk
  0x626c696b6174, -- blikat
  0x626c697a6e61, -- blizna
  0x626c6f6b6f766174, -- blokovat
  0x626c6f75646974, -- bloudit
  0x626c7564, -- blud
  0x626f62656b, -- bobek
  0x626f6272, -- bobr
  0x626f646c696e61, -- bodlina
  0x626f646e6f7574, -- bodnout
  0x626f6861746f7374, -- bohatost
  0x626f6a6b6f74, -- bojkot
  0x626f6a6f766174, -- bojovat
  0x626f6b6f727973, -- bokorys
  0x626f6c657374, -- bolest
  0x626f726563, -- borec
  0x626f726f76696365, -- borovice
  0x626f7461, -- bota
  0x626f7562656c, -- boubel
  0x626f7563686174, -- bouchat
  0x626f756461, -- bouda
  0x626f756c65, -- boule
  0x626f75726174, -- bourat
  0x626f786572, -- boxer
  0x6272616461766b61, -- bradavka
  0x6272616d626f7261, -- brambora
  0x6272616e6b61, -- branka
  0x6272617472, -- bratr
  0x627265707461, -- brepta
  0x6272696b657461, -- briketa
  0x62726b6f, -- brko
  0x62726c6f68, -- brloh
  0x62726f6e7a, -- bronz
  0x62726f736b6576, -- broskev
  0x6272756e65746b61, -- brunetka
  0x62727573696e6b61, -- brusinka
  0x62727a6461, -- brzda
  0x62727a79, -- brzy
  0x6275626c696e61, -- bublina
  0x6275626e6f766174, -- bubnovat
  0x627563687461, -- buchta
  0x6275646974656c, -- buditel
  0x6275646b61, -- budka
  0x6275646f7661, -- budova
  0x6275666574, -- bufet
  0x62756a61726f7374, -- bujarost
  0x62756b76696365, -- bukvice
  0x62756c646f6b, -- buldok
  0x62756c7661, -- bulva
  0x62756e6461, -- bunda
  0x62756e6b72, -- bunkr
  0x6275727a61, -- burza
  0x627574696b, -- butik
  0x6275766f6c, -- buvol
  0x62757a6f6c61, -- buzola
  0x6279646c6574, -- bydlet
  0x62796c696e61, -- bylina
  0x6279746f766b61, -- bytovka
  0x627a756b6f74, -- bzukot
  0x636170617274, -- capart
  0x63617265766e61, -- carevna
  0x63656472, -- cedr
  0x636564756c65, -- cedule
  0x63656a6368, -- cejch
  0x63656a6e, -- cejn
  0x63656c61, -- cela
  0x63656c6572, -- celer
  0x63656c6b656d, -- celkem
  0x63656c6e696365, -- celnice
  0x63656e696e61, -- cenina
  0x63656e6e6f7374, -- cennost
  0x63656e6f766b61, -- cenovka
  0x63656e7472756d, -- centrum
  0x63656e7a6f72, -- cenzor
  0x636573746f706973, -- cestopis
  0x6365746b61, -- cetka
  0x6368616c757061, -- chalupa
  0x6368617061646c6f, -- chapadlo
  0x63686172697461, -- charita
  0x6368617461, -- chata
  0x6368656368746174, -- chechtat
  0x6368656d6965, -- chemie
  0x63686963686f74, -- chichot
  0x63686972757267, -- chirurg
  0x63686c6164, -- chlad
  0x63686c656261, -- chleba
  0x63686c75626974, -- chlubit
  0x63686d656c, -- chmel
  0x63686d757261, -- chmura
  0x63686f626f74, -- chobot
  0x63686f63686f6c, -- chochol
  0x63686f646261, -- chodba
  0x63686f6c657261, -- cholera
  0x63686f6d6f7574, -- chomout
  0x63686f706974, -- chopit
  0x63686f726f6261, -- choroba
  0x63686f76, -- chov
  0x63687261706f74, -- chrapot
  0x6368726c6974, -- chrlit
  0x63687274, -- chrt
  0x6368727570, -- chrup
  0x63687469766f7374, -- chtivost
  0x63687564696e61, -- chudina
  0x636875746e6174, -- chutnat
  0x6368766174, -- chvat
  0x636876696c6b61, -- chvilka
  0x6368766f7374, -- chvost
  0x6368796261, -- chyba
  0x63687973746174, -- chystat
  0x636879746974, -- chytit
  0x636962756c65, -- cibule
  0x6369676172657461, -- cigareta
  0x636968656c6e61, -- cihelna
  0x6369686c61, -- cihla
  0x63696e6b6f74, -- cinkot
  0x6369726b7573, -- cirkus
  0x6369737465726e61, -- cisterna
  0x636974616365, -- citace
  0x636974727573, -- citrus
  0x63697a696e6563, -- cizinec
  0x63697a6f7374, -- cizost
  0x636c6f6e61, -- clona
  0x636f6b6f6c6976, -- cokoliv
  0x636f75766174, -- couvat
  0x63746974656c, -- ctitel
  0x63746e6f7374, -- ctnost
  0x6375646e6f7374, -- cudnost
  0x63756b657461, -- cuketa
  0x63756b72, -- cukr
  0x6375706f74, -- cupot
  0x6376616b6e6f7574, -- cvaknout
  0x6376616c, -- cval
  0x6376696b, -- cvik
  0x6376726b6f74, -- cvrkot
  0x63796b6c69737461, -- cyklista
  0x64616c656b6f, -- daleko
  0x646172656261, -- dareba
  0x646174656c, -- datel
  0x646174756d, -- datum
  0x6463657261, -- dcera
  0x646562617461, -- debata
  0x646563686f766b61, -- dechovka
  0x6465636962656c, -- decibel
  0x64656669636974, -- deficit
  0x6465666c616365, -- deflace
  0x64656b6c, -- dekl
  0x64656b726574, -- dekret
  0x64656d6f6b726174, -- demokrat
  0x64657072657365, -- deprese
  0x6465726279, -- derby
  0x6465736b61, -- deska
  0x646574656b746976, -- detektiv
  0x64696b6f6272617a, -- dikobraz
  0x64696b746f766174, -- diktovat
  0x64696f6461, -- dioda
  0x6469706c6f6d, -- diplom
  0x6469736b, -- disk
  0x646973706c656a, -- displej
  0x64697661646c6f, -- divadlo
  0x6469766f6368, -- divoch
  0x646c616861, -- dlaha
  0x646c6f75686f, -- dlouho
  0x646c75686f706973, -- dluhopis
  0x646e6573, -- dnes
  0x646f62726f, -- dobro
  0x646f627974656b, -- dobytek
  0x646f63656e74, -- docent
  0x646f636875746974, -- dochutit
  0x646f646e6573, -- dodnes
  0x646f686c6564, -- dohled
  0x646f686f6461, -- dohoda
  0x646f687261, -- dohra
  0x646f6a656d, -- dojem
  0x646f6a6e696365, -- dojnice
  0x646f6b6c6164, -- doklad
  0x646f6b6f6c61, -- dokola
  0x646f6b746f72, -- doktor
  0x646f6b756d656e74, -- dokument
  0x646f6c6172, -- dolar
  0x646f6c657661, -- doleva
  0x646f6c696e61, -- dolina
  0x646f6d61, -- doma
  0x646f6d696e616e74, -- dominant
  0x646f6d6c75766974, -- domluvit
  0x646f6d6f76, -- domov
  0x646f6e75746974, -- donutit
  0x646f706164, -- dopad
  0x646f706973, -- dopis
  0x646f706c6e6974, -- doplnit
  0x646f706f737564, -- doposud
  0x646f70726f766f64, -- doprovod
  0x646f707573746974, -- dopustit
  0x646f72617a6974, -- dorazit
  0x646f726f7374, -- dorost
  0x646f7274, -- dort
  0x646f736168, -- dosah
  0x646f736c6f76, -- doslov
  0x646f73746174656b, -- dostatek
  0x646f737564, -- dosud
  0x646f73797461, -- dosyta
  0x646f74617a, -- dotaz
  0x646f74656b, -- dotek
  0x646f746b6e6f7574, -- dotknout
  0x646f75666174, -- doufat
  0x646f75746e6174, -- doutnat
  0x646f766f7a6365, -- dovozce
  0x646f7a616475, -- dozadu
  0x646f7a6e6174, -- doznat
  0x646f7a6f726365, -- dozorce
  0x647261686f7461, -- drahota
  0x6472616b, -- drak
  0x6472616d6174696b, -- dramatik
  0x647261766563, -- dravec
  0x6472617a65, -- draze
  0x6472646f6c, -- drdol
  0x64726f626e6f7374, -- drobnost
  0x64726f6765726965, -- drogerie
  0x64726f7a64, -- drozd
  0x6472736e6f7374, -- drsnost
  0x6472746974, -- drtit
  0x64727a6f7374, -- drzost
  0x647562656e, -- duben
  0x647563686f766e6f, -- duchovno
  0x647564656b, -- dudek
  0x64756861, -- duha
  0x6475686f766b61, -- duhovka
  0x6475736974, -- dusit
  0x6475736e6f, -- dusno
  0x6475746f7374, -- dutost
  0x64766f6a696365, -- dvojice
  0x64766f726563, -- dvorec
  0x64796e616d6974, -- dynamit
  0x656b6f6c6f67, -- ekolog
  0x656b6f6e6f6d6965, -- ekonomie
  0x656c656b74726f6e, -- elektron
  0x656c69707361, -- elipsa
  0x656d61696c, -- email
  0x656d697365, -- emise
  0x656d6f6365, -- emoce
  0x656d7061746965, -- empatie
  0x6570697a6f6461, -- epizoda
  0x65706f636861, -- epocha
  0x65706f70656a, -- epopej
  0x65706f73, -- epos
  0x6573656a, -- esej
  0x6573656e6365, -- esence
  0x65736b6f727461, -- eskorta
  0x65736b796d6f, -- eskymo
  0x6574696b657461, -- etiketa
  0x6575666f726965, -- euforie
  0x65766f6c756365, -- evoluce
  0x6578656b756365, -- exekuce
  0x65786b75727a65, -- exkurze
  0x6578706564696365, -- expedice
  0x6578706c6f7a65, -- exploze
  0x6578706f7274, -- export
  0x65787472616b74, -- extrakt
  0x6661636b61, -- facka
  0x66616a666b61, -- fajfka
  0x66616b756c7461, -- fakulta
  0x66616e6174696b, -- fanatik
  0x66616e74617a6965, -- fantazie
  0x6661726d61636965, -- farmacie
  0x6661766f726974, -- favorit
  0x66617a6f6c65, -- fazole
  0x6665646572616365, -- federace
  0x66656a65746f6e, -- fejeton
  0x66656e6b61, -- fenka
  0x6669616c6b61, -- fialka
  0x6669677572616e74, -- figurant
  0x66696c6f7a6f66, -- filozof
  0x66696c7472, -- filtr
  0x66696e616e6365, -- finance
  0x66696e7461, -- finta
  0x666978616365, -- fixace
  0x666a6f7264, -- fjord
  0x666c616e656c, -- flanel
  0x666c697274, -- flirt
  0x666c6f74696c61, -- flotila
  0x666f6e64, -- fond
  0x666f73666f72, -- fosfor
  0x666f7462616c, -- fotbal
  0x666f746b61, -- fotka
  0x666f746f6e, -- foton
  0x6672616b6365, -- frakce
  0x667265736b61, -- freska
  0x66726f6e7461, -- fronta
  0x66756b6172, -- fukar
  0x66756e6b6365, -- funkce
  0x66797a696b61, -- fyzika
  0x67616c656a65, -- galeje
  0x676172616e74, -- garant
  0x67656e6574696b61, -- genetika
  0x67656f6c6f67, -- geolog
  0x67696c6f74696e61, -- gilotina
  0x676c617a757261, -- glazura
  0x676c656a74, -- glejt
  0x676f6c656d, -- golem
  0x676f6c6669737461, -- golfista
  0x676f74696b61, -- gotika
  0x67726166, -- graf
  0x6772616d6f666f6e, -- gramofon
  0x6772616e756c65, -- granule
  0x67726570, -- grep
  0x6772696c, -- gril
  0x67726f67, -- grog
  0x67726f7465736b61, -- groteska
  0x67756d61, -- guma
  0x686164696365, -- hadice
  0x68616472, -- hadr
  0x68616c61, -- hala
  0x68616c656e6b61, -- halenka
  0x68616e6261, -- hanba
  0x68616e6f706973, -- hanopis
  0x6861726661, -- harfa
  0x68617270756e61, -- harpuna
  0x68617672616e, -- havran
  0x6865626b6f7374, -- hebkost
  0x68656a6b616c, -- hejkal
  0x68656a6e6f, -- hejno
  0x68656a746d616e, -- hejtman
  0x68656b746172, -- hektar
  0x68656c6d61, -- helma
  0x68656d61746f6d, -- hematom
  0x6865726563, -- herec
  0x6865726e61, -- herna
  0x6865736c6f, -- heslo
  0x68657a6b79, -- hezky
  0x686973746f72696b, -- historik
  0x686c61646f766b61, -- hladovka
  0x686c617369766b79, -- hlasivky
  0x686c617661, -- hlava
  0x686c65646174, -- hledat
  0x686c656e, -- hlen
  0x686c6f6461766563, -- hlodavec
  0x686c6f68, -- hloh
  0x686c6f75706f7374, -- hloupost
  0x686c746174, -- hltat
  0x686c7562696e61, -- hlubina
  0x686c7563686f7461, -- hluchota
  0x686d6174, -- hmat
  0x686d6f7461, -- hmota
  0x686d797a, -- hmyz
  0x686e6973, -- hnis
  0x686e6f6a69766f, -- hnojivo
  0x686e6f7574, -- hnout
  0x686f626c696e61, -- hoblina
  0x686f626f6a, -- hoboj
  0x686f6368, -- hoch
  0x686f64696e79, -- hodiny
  0x686f646c6174, -- hodlat
  0x686f646e6f7461, -- hodnota
  0x686f646f766174, -- hodovat
  0x686f6a6e6f7374, -- hojnost
  0x686f6b656a, -- hokej
  0x686f6c696e6b61, -- holinka
  0x686f6c6b61, -- holka
  0x686f6c7562, -- holub
  0x686f6d6f6c65, -- homole
  0x686f6e69746261, -- honitba
  0x686f6e6f72616365, -- honorace
  0x686f72616c, -- horal
  0x686f726461, -- horda
  0x686f72697a6f6e74, -- horizont
  0x686f726b6f, -- horko
  0x686f726c69766563, -- horlivec
  0x686f726d6f6e, -- hormon
  0x686f726e696e61, -- hornina
  0x686f726f736b6f70, -- horoskop
  0x686f727374766f, -- horstvo
  0x686f73706f6461, -- hospoda
  0x686f7374696e61, -- hostina
  0x686f746f766f7374, -- hotovost
  0x686f756261, -- houba
  0x686f7566, -- houf
  0x686f75706174, -- houpat
  0x686f75736b61, -- houska
  0x686f766f72, -- hovor
  0x687261646261, -- hradba
  0x6872616e696365, -- hranice
  0x687261766f7374, -- hravost
  0x6872617a6461, -- hrazda
  0x6872626f6c656b, -- hrbolek
  0x687264696e61, -- hrdina
  0x6872646c6f, -- hrdlo
  0x6872646f7374, -- hrdost
  0x68726e656b, -- hrnek
  0x68726f626b61, -- hrobka
  0x68726f6d616461, -- hromada
  0x68726f74, -- hrot
  0x68726f756461, -- hrouda
  0x68726f7a656e, -- hrozen
  0x687273746b61, -- hrstka
  0x687275626f7374, -- hrubost
  0x6872797a6174, -- hryzat
  0x687562656e6f7374, -- hubenost
  0x6875626e6f7574, -- hubnout
  0x6875646261, -- hudba
  0x68756b6f74, -- hukot
  0x68756d72, -- humr
  0x687573697461, -- husita
  0x687573746f7461, -- hustota
  0x68766f7a64, -- hvozd
  0x6879626e6f7374, -- hybnost
  0x68796472616e74, -- hydrant
  0x68796769656e61, -- hygiena
  0x68796d6e61, -- hymna
  0x687973746572696b, -- hysterik
  0x6964796c6b61, -- idylka
  0x69686e6564, -- ihned
  0x696b6f6e61, -- ikona
  0x696c757a65, -- iluze
  0x696d756e697461, -- imunita
  0x696e66656b6365, -- infekce
  0x696e666c616365, -- inflace
  0x696e6b61736f, -- inkaso
  0x696e6f76616365, -- inovace
  0x696e7370656b6365, -- inspekce
  0x696e7465726e6574, -- internet
  0x696e76616c696461, -- invalida
  0x696e766573746f72, -- investor
  0x696e7a65726365, -- inzerce
  0x69726f6e6965, -- ironie
  0x6a61626c6b6f, -- jablko
  0x6a6163687461, -- jachta
  0x6a61686f6461, -- jahoda
  0x6a616b6d696c65, -- jakmile
  0x6a616b6f7374, -- jakost
  0x6a616c6f766563, -- jalovec
  0x6a616e746172, -- jantar
  0x6a61726d61726b, -- jarmark
  0x6a61726f, -- jaro
  0x6a6173616e, -- jasan
  0x6a61736e6f, -- jasno
  0x6a61746b61, -- jatka
  0x6a61766f72, -- javor
  0x6a617a796b, -- jazyk
  0x6a6564696e6563, -- jedinec
  0x6a65646c65, -- jedle
  0x6a65646e6174656c, -- jednatel
  0x6a65686c616e, -- jehlan
  0x6a656b6f74, -- jekot
  0x6a656c656e, -- jelen
  0x6a656c69746f, -- jelito
  0x6a656d6e6f7374, -- jemnost
  0x6a656e6f6d, -- jenom
  0x6a6570696365, -- jepice
  0x6a657365746572, -- jeseter
  0x6a65766974, -- jevit
  0x6a657a646563, -- jezdec
  0x6a657a65726f, -- jezero
  0x6a696e616b, -- jinak
  0x6a696e6479, -- jindy
  0x6a696e6f6368, -- jinoch
  0x6a69736b7261, -- jiskra
  0x6a6973746f7461, -- jistota
  0x6a6974726e696365, -- jitrnice
  0x6a697a7661, -- jizva
  0x6a6d656e6f766174, -- jmenovat
  0x6a6f67757274, -- jogurt
  0x6a75727461, -- jurta
  0x6b616261726574, -- kabaret
  0x6b6162656c, -- kabel
  0x6b6162696e6574, -- kabinet
  0x6b6163686e61, -- kachna
  0x6b61646574, -- kadet
  0x6b616469646c6f, -- kadidlo
  0x6b6168616e, -- kahan
  0x6b616a616b, -- kajak
  0x6b616a757461, -- kajuta
  0x6b616b616f, -- kakao
  0x6b616b747573, -- kaktus
  0x6b616c616d697461, -- kalamita
  0x6b616c686f7479, -- kalhoty
  0x6b616c696272, -- kalibr
  0x6b616c6e6f7374, -- kalnost
  0x6b616d657261, -- kamera
  0x6b616d6b6f6c6976, -- kamkoliv
  0x6b616d6e61, -- kamna
  0x6b616e6962616c, -- kanibal
  0x6b616e6f65, -- kanoe
  0x6b616e746f72, -- kantor
  0x6b6170616c696e61, -- kapalina
  0x6b6170656c61, -- kapela
  0x6b617069746f6c61, -- kapitola
  0x6b61706b61, -- kapka
  0x6b61706c65, -- kaple
  0x6b61706f7461, -- kapota
  0x6b617072, -- kapr
  0x6b617075737461, -- kapusta
  0x6b61707962617261, -- kapybara
  0x6b6172616d656c, -- karamel
  0x6b61726f746b61, -- karotka
  0x6b6172746f6e, -- karton
  0x6b617361, -- kasa
  0x6b6174616c6f67, -- katalog
  0x6b617465647261, -- katedra
  0x6b61756365, -- kauce
  0x6b61757a61, -- kauza
  0x6b6176616c6563, -- kavalec
  0x6b617a616a6b61, -- kazajka
  0x6b617a657461, -- kazeta
  0x6b617a69766f7374, -- kazivost
  0x6b64656b6f6c6976, -- kdekoliv
  0x6b64657369, -- kdesi
  0x6b65646c7562656e, -- kedluben
  0x6b656d70, -- kemp
  0x6b6572616d696b61, -- keramika
  0x6b696e6f, -- kino
  0x6b6c6163656b, -- klacek
  0x6b6c616469766f, -- kladivo
  0x6b6c616d, -- klam
  0x6b6c61706f74, -- klapot
  0x6b6c6173696b61, -- klasika
  0x6b6c61756e, -- klaun
  0x6b6c6563, -- klec
  0x6b6c656e6261, -- klenba
  0x6b6c65706174, -- klepat
  0x6b6c65736e6f7574, -- klesnout
  0x6b6c6964, -- klid
  0x6b6c696d61, -- klima
  0x6b6c69736e61, -- klisna
  0x6b6c6f626f756b, -- klobouk
  0x6b6c6f6b616e, -- klokan
  0x6b6c6f7061, -- klopa
  0x6b6c6f7562, -- kloub
  0x6b6c75626f766e61, -- klubovna
  0x6b6c75736174, -- klusat
  0x6b6c757a6b6f7374, -- kluzkost
  0x6b6d656e, -- kmen
  0x6b6d69746174, -- kmitat
  0x6b6d6f7472, -- kmotr
  0x6b6e696861, -- kniha
  0x6b6e6f74, -- knot
  0x6b6f616c696365, -- koalice
  0x6b6f6265726563, -- koberec
  0x6b6f626b61, -- kobka
  0x6b6f626c696861, -- kobliha
  0x6b6f62796c61, -- kobyla
  0x6b6f636f7572, -- kocour
  0x6b6f686f7574, -- kohout
  0x6b6f6a656e6563, -- kojenec
  0x6b6f6b6f73, -- kokos
  0x6b6f6b74656a6c, -- koktejl
  0x6b6f6c617073, -- kolaps
  0x6b6f6c656461, -- koleda
  0x6b6f6c697a65, -- kolize
  0x6b6f6c6f, -- kolo
  0x6b6f6d616e646f, -- komando
  0x6b6f6d657461, -- kometa
  0x6b6f6d696b, -- komik
  0x6b6f6d6e617461, -- komnata
  0x6b6f6d6f7261, -- komora
  0x6b6f6d706173, -- kompas
  0x6b6f6d756e697461, -- komunita
  0x6b6f6e6174, -- konat
  0x6b6f6e63657074, -- koncept
  0x6b6f6e64696365, -- kondice
  0x6b6f6e6563, -- konec
  0x6b6f6e66657365, -- konfese
  0x6b6f6e67726573, -- kongres
  0x6b6f6e696e61, -- konina
  0x6b6f6e6b757273, -- konkurs
  0x6b6f6e74616b74, -- kontakt
  0x6b6f6e7a65727661, -- konzerva
  0x6b6f70616e6563, -- kopanec
  0x6b6f706965, -- kopie
  0x6b6f706e6f7574, -- kopnout
  0x6b6f70726f766b61, -- koprovka
  0x6b6f7262656c, -- korbel
  0x6b6f72656b746f72, -- korektor
  0x6b6f726d69646c6f, -- kormidlo
  0x6b6f726f70746576, -- koroptev
  0x6b6f72707573, -- korpus
  0x6b6f72756e61, -- koruna
  0x6b6f7279746f, -- koryto
  0x6b6f727a6574, -- korzet
  0x6b6f7361746563, -- kosatec
  0x6b6f73746b61, -- kostka
  0x6b6f74656c, -- kotel
  0x6b6f746c657461, -- kotleta
  0x6b6f746f756c, -- kotoul
  0x6b6f756b6174, -- koukat
  0x6b6f7570656c6e61, -- koupelna
  0x6b6f7573656b, -- kousek
  0x6b6f757a6c6f, -- kouzlo
  0x6b6f76626f6a, -- kovboj
  0x6b6f7a61, -- koza
  0x6b6f7a6f726f68, -- kozoroh
  0x6b726162696365, -- krabice
  0x6b72616368, -- krach
  0x6b72616a696e61, -- krajina
  0x6b72616c6f766174, -- kralovat
  0x6b7261736f706973, -- krasopis
  0x6b726176617461, -- kravata
  0x6b7265646974, -- kredit
  0x6b72656a636172, -- krejcar
  0x6b7265736261, -- kresba
  0x6b726576657461, -- kreveta
  0x6b72696b6574, -- kriket
  0x6b726974696b, -- kritik
  0x6b72697a65, -- krize
  0x6b726b61766563, -- krkavec
  0x6b726d656c6563, -- krmelec
  0x6b726d69766f, -- krmivo
  0x6b726f63616e, -- krocan
  0x6b726f6b, -- krok
  0x6b726f6e696b61, -- kronika
  0x6b726f706974, -- kropit
  0x6b726f757061, -- kroupa
  0x6b726f766b61, -- krovka
  0x6b7274656b, -- krtek
  0x6b72756861646c6f, -- kruhadlo
  0x6b727570696365, -- krupice
  0x6b7275746f7374, -- krutost
  0x6b7276696e6b61, -- krvinka
  0x6b727963686c65, -- krychle
  0x6b7279707461, -- krypta
  0x6b72797374616c, -- krystal
  0x6b727974, -- kryt
  0x6b75646c616e6b61, -- kudlanka
  0x6b756672, -- kufr
  0x6b756a6e6f7374, -- kujnost
  0x6b756b6c61, -- kukla
  0x6b756c616a6461, -- kulajda
  0x6b756c696368, -- kulich
  0x6b756c6b61, -- kulka
  0x6b756c6f6d6574, -- kulomet
  0x6b756c74757261, -- kultura
  0x6b756e61, -- kuna
  0x6b75706f64697675, -- kupodivu
  0x6b757274, -- kurt
  0x6b75727a6f72, -- kurzor
  0x6b7574696c, -- kutil
  0x6b76616c697461, -- kvalita
  0x6b766173696e6b61, -- kvasinka
  0x6b766573746f72, -- kvestor
  0x6b796e6f6c6f67, -- kynolog
  0x6b7973656c696e61, -- kyselina
  0x6b7974617261, -- kytara
  0x6b7974696365, -- kytice
  0x6b79746b61, -- kytka
  0x6b79746f766563, -- kytovec
  0x6b797661646c6f, -- kyvadlo
  0x6c61627261646f72, -- labrador
  0x6c61636874616e, -- lachtan
  0x6c61646e6f7374, -- ladnost
  0x6c61696b, -- laik
  0x6c616b6f6d6563, -- lakomec
  0x6c616d656c61, -- lamela
  0x6c616d7061, -- lampa
  0x6c616e6f766b61, -- lanovka
  0x6c6173696365, -- lasice
  0x6c61736f, -- laso
  0x6c617374757261, -- lastura
  0x6c6174696e6b61, -- latinka
  0x6c6176696e61, -- lavina
  0x6c65626b61, -- lebka
  0x6c65636b6479, -- leckdy
  0x6c6564656e, -- leden
  0x6c65646e696365, -- lednice
  0x6c65646f766b61, -- ledovka
  0x6c656476696e61, -- ledvina
  0x6c6567656e6461, -- legenda
  0x6c65676965, -- legie
  0x6c656772616365, -- legrace
  0x6c65686365, -- lehce
  0x6c65686b6f7374, -- lehkost
  0x6c65686e6f7574, -- lehnout
  0x6c656b74766172, -- lektvar
  0x6c656e6f63686f64, -- lenochod
  0x6c656e74696c6b61, -- lentilka
  0x6c6570656e6b61, -- lepenka
  0x6c657069646c6f, -- lepidlo
  0x6c657461646c6f, -- letadlo
  0x6c65746563, -- letec
  0x6c65746d6f, -- letmo
  0x6c65746f6b727568, -- letokruh
  0x6c657668617274, -- levhart
  0x6c65766974616365, -- levitace
  0x6c65766f626f6b, -- levobok
  0x6c69627261, -- libra
  0x6c6963686f746b61, -- lichotka
  0x6c69646f6a6564, -- lidojed
  0x6c6964736b6f7374, -- lidskost
  0x6c69686f76696e61, -- lihovina
  0x6c696a61766563, -- lijavec
  0x6c696c656b, -- lilek
  0x6c696d65746b61, -- limetka
  0x6c696e6965, -- linie
  0x6c696e6b61, -- linka
  0x6c696e6f6c65756d, -- linoleum
  0x6c6973746f706164, -- listopad
  0x6c6974696e61, -- litina
  0x6c69746f766174, -- litovat
  0x6c6f6269737461, -- lobista
  0x6c6f6469766f64, -- lodivod
  0x6c6f67696b61, -- logika
  0x6c6f676f706564, -- logoped
  0x6c6f6b616c697461, -- lokalita
  0x6c6f6b6574, -- loket
  0x6c6f6d636f766174, -- lomcovat
  0x6c6f70617461, -- lopata
  0x6c6f70756368, -- lopuch
  0x6c6f7264, -- lord
  0x6c6f736f73, -- losos
  0x6c6f7472, -- lotr
  0x6c6f7564616c, -- loudal
  0x6c6f7568, -- louh
  0x6c6f756b61, -- louka
  0x6c6f75736b6174, -- louskat
  0x6c6f766563, -- lovec
  0x6c737469766f7374, -- lstivost
  0x6c756365726e61, -- lucerna
  0x6c756369666572, -- lucifer
  0x6c756d70, -- lump
  0x6c75736b, -- lusk
  0x6c75737472616365, -- lustrace
  0x6c76696365, -- lvice
  0x6c797261, -- lyra
  0x6c7972696b61, -- lyrika
  0x6c7973696e61, -- lysina
  0x6d6164616d, -- madam
  0x6d61646c6f, -- madlo
  0x6d616769737472, -- magistr
  0x6d616861676f6e, -- mahagon
  0x6d616a6574656b, -- majetek
  0x6d616a6974656c, -- majitel
  0x6d616a6f72697461, -- majorita
  0x6d616b616b, -- makak
  0x6d616b6f76696365, -- makovice
  0x6d616b72656c61, -- makrela
  0x6d616c6261, -- malba
  0x6d616c696e61, -- malina
  0x6d616c6f766174, -- malovat
  0x6d616c76696365, -- malvice
  0x6d616d696e6b61, -- maminka
  0x6d616e646c65, -- mandle
  0x6d616e6b6f, -- manko
  0x6d61726e6f7374, -- marnost
  0x6d6173616b72, -- masakr
  0x6d61736b6f74, -- maskot
  0x6d61736f70757374, -- masopust
  0x6d6174696365, -- matice
  0x6d617472696b61, -- matrika
  0x6d61747572697461, -- maturita
  0x6d617a616e6563, -- mazanec
  0x6d617a69766f, -- mazivo
  0x6d617a6c6974, -- mazlit
  0x6d617a75726b61, -- mazurka
  0x6d646c6f6261, -- mdloba
  0x6d656368616e696b, -- mechanik
  0x6d65646974616365, -- meditace
  0x6d65646f76696e61, -- medovina
  0x6d656c617361, -- melasa
  0x6d656c6f756e, -- meloun
  0x6d656e746f6c6b61, -- mentolka
  0x6d65746c61, -- metla
  0x6d65746f6461, -- metoda
  0x6d657472, -- metr
  0x6d657a657261, -- mezera
  0x6d696772616365, -- migrace
  0x6d69686e6f7574, -- mihnout
  0x6d6968756c65, -- mihule
  0x6d696b696e61, -- mikina
  0x6d696b726f666f6e, -- mikrofon
  0x6d696c656e6563, -- milenec
  0x6d696c696d657472, -- milimetr
  0x6d696c6f7374, -- milost
  0x6d696d696b61, -- mimika
  0x6d696e636f766e61, -- mincovna
  0x6d696e69626172, -- minibar
  0x6d696e6f6d6574, -- minomet
  0x6d696e756c6f7374, -- minulost
  0x6d69736b61, -- miska
  0x6d69737472, -- mistr
  0x6d69786f766174, -- mixovat
  0x6d6c61646f7374, -- mladost
  0x6d6c6861, -- mlha
  0x6d6c686f76696e61, -- mlhovina
  0x6d6c6f6b, -- mlok
  0x6d6c736174, -- mlsat
  0x6d6c75766974, -- mluvit
  0x6d6e696368, -- mnich
  0x6d6e6f68656d, -- mnohem
  0x6d6f62696c, -- mobil
  0x6d6f636e6f7374, -- mocnost
  0x6d6f64656c6b61, -- modelka
  0x6d6f646c69746261, -- modlitba
  0x6d6f68796c61, -- mohyla
  0x6d6f6b726f, -- mokro
  0x6d6f6c656b756c61, -- molekula
  0x6d6f6d656e746b61, -- momentka
  0x6d6f6e6172636861, -- monarcha
  0x6d6f6e6f6b6c, -- monokl
  0x6d6f6e737472756d, -- monstrum
  0x6d6f6e746f766174, -- montovat
  0x6d6f6e7a756e, -- monzun
  0x6d6f73617a, -- mosaz
  0x6d6f736b7974, -- moskyt
  0x6d6f7374, -- most
  0x6d6f746976616365, -- motivace
  0x6d6f746f726b61, -- motorka
  0x6d6f74796b61, -- motyka
  0x6d6f75636861, -- moucha
  0x6d6f7564726f7374, -- moudrost
  0x6d6f7a61696b61, -- mozaika
  0x6d6f7a656b, -- mozek
  0x6d6f7a6f6c, -- mozol
  0x6d72616d6f72, -- mramor
  0x6d726176656e6563, -- mravenec
  0x6d726b6576, -- mrkev
  0x6d7274766f6c61, -- mrtvola
  0x6d727a6574, -- mrzet
  0x6d727a75746f7374, -- mrzutost
  0x6d73746974656c, -- mstitel
  0x6d75647263, -- mudrc
  0x6d75666c6f6e, -- muflon
  0x6d756c6174, -- mulat
  0x6d756d6965, -- mumie
  0x6d756e696365, -- munice
  0x6d75736574, -- muset
  0x6d7574616365, -- mutace
  0x6d757a65756d, -- muzeum
  0x6d757a696b616e74, -- muzikant
  0x6d79736c69766563, -- myslivec
  0x6d7a6461, -- mzda
  0x6e61626f75726174, -- nabourat
  0x6e61636879746174, -- nachytat
  0x6e6164616365, -- nadace
  0x6e6164627974656b, -- nadbytek
  0x6e6164686f7a, -- nadhoz
  0x6e61646f62726f, -- nadobro
  0x6e6164706973, -- nadpis
  0x6e61686c6173, -- nahlas
  0x6e61686e6174, -- nahnat
  0x6e61686f64696c65, -- nahodile
  0x6e61687261646974, -- nahradit
  0x6e616976697461, -- naivita
  0x6e616a65646e6f75, -- najednou
  0x6e616a6973746f, -- najisto
  0x6e616a6d6f7574, -- najmout
  0x6e616b6c6f6e6974, -- naklonit
  0x6e616b6f6e6563, -- nakonec
  0x6e616b726d6974, -- nakrmit
  0x6e616c65766f, -- nalevo
  0x6e616d617a6174, -- namazat
  0x6e616d6c75766974, -- namluvit
  0x6e616e6f6d657472, -- nanometr
  0x6e616f6b6f, -- naoko
  0x6e616f70616b, -- naopak
  0x6e616f7374726f, -- naostro
  0x6e617061646174, -- napadat
  0x6e617065766e6f, -- napevno
  0x6e61706c6e6974, -- naplnit
  0x6e61706e6f7574, -- napnout
  0x6e61706f736c6564, -- naposled
  0x6e6170726f73746f, -- naprosto
  0x6e61726f646974, -- narodit
  0x6e6172756279, -- naruby
  0x6e61727963686c6f, -- narychlo
  0x6e617361646974, -- nasadit
  0x6e6173656b6174, -- nasekat
  0x6e61736c65706f, -- naslepo
  0x6e6173746174, -- nastat
  0x6e61746f6c696b, -- natolik
  0x6e6176656e656b, -- navenek
  0x6e6176726368, -- navrch
  0x6e61767a646f7279, -- navzdory
  0x6e617a766174, -- nazvat
  0x6e656265, -- nebe
  0x6e6563686174, -- nechat
  0x6e65636b79, -- necky
  0x6e6564616c656b6f, -- nedaleko
  0x6e6564626174, -- nedbat
  0x6e65647568, -- neduh
  0x6e6567616365, -- negace
  0x6e65686574, -- nehet
  0x6e65686f6461, -- nehoda
  0x6e656a656e, -- nejen
  0x6e656a70727665, -- nejprve
  0x6e656b6c6964, -- neklid
  0x6e656c69626f7374, -- nelibost
  0x6e656d696c6f7374, -- nemilost
  0x6e656d6f63, -- nemoc
  0x6e656f63686f7461, -- neochota
  0x6e656f6e6b61, -- neonka
  0x6e65706f6b6f6a, -- nepokoj
  0x6e65726f7374, -- nerost
  0x6e657276, -- nerv
  0x6e65736d79736c, -- nesmysl
  0x6e65736f756c6164, -- nesoulad
  0x6e6574766f72, -- netvor
  0x6e6575726f6e, -- neuron
  0x6e6576696e61, -- nevina
  0x6e657a76796b6c65, -- nezvykle
  0x6e69636f7461, -- nicota
  0x6e696a616b, -- nijak
  0x6e696b616d, -- nikam
  0x6e696b6479, -- nikdy
  0x6e696b6c, -- nikl
  0x6e696b746572616b, -- nikterak
  0x6e6974726f, -- nitro
  0x6e6f636c6568, -- nocleh
  0x6e6f686176696365, -- nohavice
  0x6e6f6d696e616365, -- nominace
  0x6e6f7261, -- nora
  0x6e6f72656b, -- norek
  0x6e6f736974656c, -- nositel
  0x6e6f736e6f7374, -- nosnost
  0x6e6f757a65, -- nouze
  0x6e6f76696e79, -- noviny
  0x6e6f766f7461, -- novota
  0x6e6f7a647261, -- nozdra
  0x6e756461, -- nuda
  0x6e75646c65, -- nudle
  0x6e75676574, -- nuget
  0x6e75746974, -- nutit
  0x6e75746e6f7374, -- nutnost
  0x6e7574726965, -- nutrie
  0x6e796d6661, -- nymfa
  0x6f62616c, -- obal
  0x6f626172766974, -- obarvit
  0x6f62617661, -- obava
  0x6f62646976, -- obdiv
  0x6f626563, -- obec
  0x6f6265686e6174, -- obehnat
  0x6f62656a6d6f7574, -- obejmout
  0x6f62657a697461, -- obezita
  0x6f6268616a6f6261, -- obhajoba
  0x6f62696c6e696365, -- obilnice
  0x6f626a61736e6974, -- objasnit
  0x6f626a656b74, -- objekt
  0x6f626b6c6f706974, -- obklopit
  0x6f626c617374, -- oblast
  0x6f626c656b, -- oblek
  0x6f626c696261, -- obliba
  0x6f626c6f6861, -- obloha
  0x6f626c756461, -- obluda
  0x6f626e6f73, -- obnos
  0x6f626f6861746974, -- obohatit
  0x6f626f6a656b, -- obojek
  0x6f626f7574, -- obout
  0x6f6272617a6563, -- obrazec
  0x6f62726e61, -- obrna
  0x6f6272756261, -- obruba
  0x6f62727973, -- obrys
  0x6f62736168, -- obsah
  0x6f62736c756861, -- obsluha
  0x6f62737461726174, -- obstarat
  0x6f627576, -- obuv
  0x6f6276617a, -- obvaz
  0x6f6276696e6974, -- obvinit
  0x6f62766f64, -- obvod
  0x6f6276796b6c65, -- obvykle
  0x6f6279766174656c, -- obyvatel
  0x6f627a6f72, -- obzor
  0x6f636173, -- ocas
  0x6f63656c, -- ocel
  0x6f63656e6974, -- ocenit
  0x6f63686c61646974, -- ochladit
  0x6f63686f7461, -- ochota
  0x6f636872616e61, -- ochrana
  0x6f6369746e6f7574, -- ocitnout
  0x6f64626f6a, -- odboj
  0x6f64627974, -- odbyt
  0x6f6463686f64, -- odchod
  0x6f6463697a6974, -- odcizit
  0x6f646562726174, -- odebrat
  0x6f6465736c6174, -- odeslat
  0x6f6465767a646174, -- odevzdat
  0x6f64657a7661, -- odezva
  0x6f646861646365, -- odhadce
  0x6f64686f646974, -- odhodit
  0x6f646a6574, -- odjet
  0x6f646a696e7564, -- odjinud
  0x6f646b617a, -- odkaz
  0x6f646b6f75706974, -- odkoupit
  0x6f646c6976, -- odliv
  0x6f646c756b61, -- odluka
  0x6f646d6c6b61, -- odmlka
  0x6f646f6c6e6f7374, -- odolnost
  0x6f64706164, -- odpad
  0x6f64706973, -- odpis
  0x6f64706c6f7574, -- odplout
  0x6f64706f72, -- odpor
  0x6f64707573746974, -- odpustit
  0x6f6470796b6174, -- odpykat
  0x6f6472617a6b61, -- odrazka
  0x6f64736f75646974, -- odsoudit
  0x6f6473747570, -- odstup
  0x6f6473756e, -- odsun
  0x6f64746f6b, -- odtok
  0x6f64747564, -- odtud
  0x6f6476616861, -- odvaha
  0x6f6476657461, -- odveta
  0x6f64766f6c6174, -- odvolat
  0x6f64767261636574, -- odvracet
  0x6f647a6e616b, -- odznak
  0x6f66696e61, -- ofina
  0x6f6673616a64, -- ofsajd
  0x6f686c6173, -- ohlas
  0x6f686e69736b6f, -- ohnisko
  0x6f6872616461, -- ohrada
  0x6f68726f7a6974, -- ohrozit
  0x6f6872797a656b, -- ohryzek
  0x6f6b6170, -- okap
  0x6f6b656e696365, -- okenice
  0x6f6b6c696b61, -- oklika
  0x6f6b6e6f, -- okno
  0x6f6b6f757a6c6974, -- okouzlit
  0x6f6b6f7679, -- okovy
  0x6f6b72617361, -- okrasa
  0x6f6b726573, -- okres
  0x6f6b7273656b, -- okrsek
  0x6f6b727568, -- okruh
  0x6f6b7570616e74, -- okupant
  0x6f6b75726b61, -- okurka
  0x6f6b75736974, -- okusit
  0x6f6c656a6e696e61, -- olejnina
  0x6f6c697a6f766174, -- olizovat
  0x6f6d616b, -- omak
  0x6f6d656c657461, -- omeleta
  0x6f6d657a6974, -- omezit
  0x6f6d6c6164696e61, -- omladina
  0x6f6d6c6f75766174, -- omlouvat
  0x6f6d6c757661, -- omluva
  0x6f6d796c, -- omyl
  0x6f6e65686479, -- onehdy
  0x6f70616b6f766174, -- opakovat
  0x6f706173656b, -- opasek
  0x6f706572616365, -- operace
  0x6f70696365, -- opice
  0x6f70696c6f7374, -- opilost
  0x6f7069736f766174, -- opisovat
  0x6f706f7261, -- opora
  0x6f706f7a696365, -- opozice
  0x6f707261766475, -- opravdu
  0x6f70726f7469, -- oproti
  0x6f72626974616c, -- orbital
  0x6f72636865737472, -- orchestr
  0x6f72676965, -- orgie
  0x6f726c696365, -- orlice
  0x6f726c6f6a, -- orloj
  0x6f7274656c, -- ortel
  0x6f73616461, -- osada
  0x6f7363686e6f7574, -- oschnout
  0x6f73696b61, -- osika
  0x6f7369766f, -- osivo
  0x6f736c617661, -- oslava
  0x6f736c65706974, -- oslepit
  0x6f736c6e6974, -- oslnit
  0x6f736c6f766974, -- oslovit
  0x6f736e6f7661, -- osnova
  0x6f736f6261, -- osoba
  0x6f736f6c6974, -- osolit
  0x6f7370616c6563, -- ospalec
  0x6f7374656e, -- osten
  0x6f737472616861, -- ostraha
  0x6f7374756461, -- ostuda
  0x6f7374796368, -- ostych
  0x6f73766f6a6974, -- osvojit
  0x6f7465706c6974, -- oteplit
  0x6f7469736b, -- otisk
  0x6f746f70, -- otop
  0x6f7472686174, -- otrhat
  0x6f74726c6f7374, -- otrlost
  0x6f74726f6b, -- otrok
  0x6f7472756279, -- otruby
  0x6f74766f72, -- otvor
  0x6f76616e6f7574, -- ovanout
  0x6f766172, -- ovar
  0x6f766573, -- oves
  0x6f766c69766e6974, -- ovlivnit
  0x6f766f6365, -- ovoce
  0x6f786964, -- oxid
  0x6f7a646f6261, -- ozdoba
  0x706163686174656c, -- pachatel
  0x70616369656e74, -- pacient
  0x7061646f756368, -- padouch
  0x7061686f72656b, -- pahorek
  0x70616b74, -- pakt
  0x70616c616e6461, -- palanda
  0x70616c6563, -- palec
  0x70616c69766f, -- palivo
  0x70616c756261, -- paluba
  0x70616d666c6574, -- pamflet
  0x70616d6c73656b, -- pamlsek
  0x70616e656e6b61, -- panenka
  0x70616e696b61, -- panika
  0x70616e6e61, -- panna
  0x70616e6f766174, -- panovat
  0x70616e7374766f, -- panstvo
  0x70616e746f666c65, -- pantofle
  0x70617072696b61, -- paprika
  0x7061726b657461, -- parketa
  0x7061726f646965, -- parodie
  0x7061727461, -- parta
  0x706172756b61, -- paruka
  0x706172796261, -- paryba
  0x706173656b61, -- paseka
  0x7061736976697461, -- pasivita
  0x70617374656c6b61, -- pastelka
  0x706174656e74, -- patent
  0x706174726f6e61, -- patrona
  0x7061766f756b, -- pavouk
  0x70617a6e656874, -- pazneht
  0x70617a6f7572656b, -- pazourek
  0x7065636b61, -- pecka
  0x70656461676f67, -- pedagog
  0x70656a73656b, -- pejsek
  0x70656b6c6f, -- peklo
  0x70656c6f746f6e, -- peloton
  0x70656e616c7461, -- penalta
  0x70656e6472656b, -- pendrek
  0x70656e7a65, -- penze
  0x70657269736b6f70, -- periskop
  0x7065726f, -- pero
  0x70657374726f7374, -- pestrost
  0x70657461726461, -- petarda
  0x706574696365, -- petice
  0x706574726f6c656a, -- petrolej
  0x7065766e696e61, -- pevnina
  0x70657865736f, -- pexeso
  0x7069616e69737461, -- pianista
  0x70696861, -- piha
  0x70696a6176696365, -- pijavice
  0x70696b6c65, -- pikle
  0x70696b6e696b, -- piknik
  0x70696c696e61, -- pilina
  0x70696c6e6f7374, -- pilnost
  0x70696c756c6b61, -- pilulka
  0x70696e7a657461, -- pinzeta
  0x706970657461, -- pipeta
  0x7069736174656c, -- pisatel
  0x706973746f6c65, -- pistole
  0x70697465766e61, -- pitevna
  0x7069766e696365, -- pivnice
  0x7069766f766172, -- pivovar
  0x706c6163656e7461, -- placenta
  0x706c616b6174, -- plakat
  0x706c616d656e, -- plamen
  0x706c616e657461, -- planeta
  0x706c617374696b61, -- plastika
  0x706c61746974, -- platit
  0x706c617669646c6f, -- plavidlo
  0x706c617a, -- plaz
  0x706c656368, -- plech
  0x706c656d656e6f, -- plemeno
  0x706c656e7461, -- plenta
  0x706c6573, -- ples
  0x706c657469766f, -- pletivo
  0x706c6576656c, -- plevel
  0x706c69766174, -- plivat
  0x706c6e6974, -- plnit
  0x706c6e6f, -- plno
  0x706c6f636861, -- plocha
  0x706c6f64696e61, -- plodina
  0x706c6f6d6261, -- plomba
  0x706c6f7574, -- plout
  0x706c756b, -- pluk
  0x706c796e, -- plyn
  0x706f6261766974, -- pobavit
  0x706f627974, -- pobyt
  0x706f63686f64, -- pochod
  0x706f636974, -- pocit
  0x706f637469766563, -- poctivec
  0x706f646174, -- podat
  0x706f6463656e6974, -- podcenit
  0x706f646570736174, -- podepsat
  0x706f64686c6564, -- podhled
  0x706f6469766974, -- podivit
  0x706f646b6c6164, -- podklad
  0x706f646d616e6974, -- podmanit
  0x706f646e696b, -- podnik
  0x706f646f6261, -- podoba
  0x706f64706f7261, -- podpora
  0x706f6472617a, -- podraz
  0x706f647374617461, -- podstata
  0x706f64766f64, -- podvod
  0x706f647a696d, -- podzim
  0x706f657a6965, -- poezie
  0x706f68616e6b61, -- pohanka
  0x706f686e75746b61, -- pohnutka
  0x706f686f766f72, -- pohovor
  0x706f68726f6d61, -- pohroma
  0x706f687962, -- pohyb
  0x706f696e7461, -- pointa
  0x706f6a6973746b61, -- pojistka
  0x706f6a6d6f7574, -- pojmout
  0x706f6b617a6974, -- pokazit
  0x706f6b6c6573, -- pokles
  0x706f6b6f6a, -- pokoj
  0x706f6b726f6b, -- pokrok
  0x706f6b757461, -- pokuta
  0x706f6b796e, -- pokyn
  0x706f6c65646e65, -- poledne
  0x706f6c6962656b, -- polibek
  0x706f6c6b6e6f7574, -- polknout
  0x706f6c6f6861, -- poloha
  0x706f6c796e6f6d, -- polynom
  0x706f6d616c75, -- pomalu
  0x706f6d696e6f7574, -- pominout
  0x706f6d6c6b61, -- pomlka
  0x706f6d6f63, -- pomoc
  0x706f6d737461, -- pomsta
  0x706f6d79736c6574, -- pomyslet
  0x706f6e6563686174, -- ponechat
  0x706f6e6f726b61, -- ponorka
  0x706f6e75726f7374, -- ponurost
  0x706f7061646174, -- popadat
  0x706f70656c, -- popel
  0x706f706973656b, -- popisek
  0x706f706c616368, -- poplach
  0x706f70726f736974, -- poprosit
  0x706f70736174, -- popsat
  0x706f707564, -- popud
  0x706f7261646365, -- poradce
  0x706f726365, -- porce
  0x706f726f64, -- porod
  0x706f7275636861, -- porucha
  0x706f727976, -- poryv
  0x706f7361646974, -- posadit
  0x706f736564, -- posed
  0x706f73696c61, -- posila
  0x706f736b6f6b, -- poskok
  0x706f736c616e6563, -- poslanec
  0x706f736f75646974, -- posoudit
  0x706f73706f6c75, -- pospolu
  0x706f7374617661, -- postava
  0x706f737564656b, -- posudek
  0x706f737970, -- posyp
  0x706f746168, -- potah
  0x706f746b616e, -- potkan
  0x706f746c65736b, -- potlesk
  0x706f746f6d656b, -- potomek
  0x706f7472617661, -- potrava
  0x706f74757061, -- potupa
  0x706f74766f7261, -- potvora
  0x706f756b617a, -- poukaz
  0x706f75746f, -- pouto
  0x706f757a64726f, -- pouzdro
  0x706f76616861, -- povaha
  0x706f7669646c61, -- povidla
  0x706f766c616b, -- povlak
  0x706f766f7a, -- povoz
  0x706f76726368, -- povrch
  0x706f7673746174, -- povstat
  0x706f76796b, -- povyk
  0x706f767a64656368, -- povzdech
  0x706f7a64726176, -- pozdrav
  0x706f7a656d656b, -- pozemek
  0x706f7a6e6174656b, -- poznatek
  0x706f7a6f72, -- pozor
  0x706f7a766174, -- pozvat
  0x707261636f766174, -- pracovat
  0x707261686f7279, -- prahory
  0x7072616b74696b61, -- praktika
  0x7072616c6573, -- prales
  0x7072616f746563, -- praotec
  0x707261706f72656b, -- praporek
  0x7072617365, -- prase
  0x707261766461, -- pravda
  0x7072696e636970, -- princip
  0x70726b6e6f, -- prkno
  0x70726f6275646974, -- probudit
  0x70726f63656e746f, -- procento
  0x70726f64656a, -- prodej
  0x70726f66657365, -- profese
  0x70726f687261, -- prohra
  0x70726f6a656b74, -- projekt
  0x70726f6c6f6d6974, -- prolomit
  0x70726f6d696c65, -- promile
  0x70726f6e696b6174, -- pronikat
  0x70726f706164, -- propad
  0x70726f726f6b, -- prorok
  0x70726f736261, -- prosba
  0x70726f746f6e, -- proton
  0x70726f7574656b, -- proutek
  0x70726f76617a, -- provaz
  0x7072736b61766b61, -- prskavka
  0x70727374656e, -- prsten
  0x707275646b6f7374, -- prudkost
  0x70727574, -- prut
  0x707276656b, -- prvek
  0x7072766f686f7279, -- prvohory
  0x7073616e6563, -- psanec
  0x70736f766f64, -- psovod
  0x707374727568, -- pstruh
  0x7074616374766f, -- ptactvo
  0x70756265727461, -- puberta
  0x70756368, -- puch
  0x7075646c, -- pudl
  0x70756b61766563, -- pukavec
  0x70756b6c696e61, -- puklina
  0x70756b726c65, -- pukrle
  0x70756c74, -- pult
  0x70756d7061, -- pumpa
  0x70756e63, -- punc
  0x707570656e, -- pupen
  0x70757361, -- pusa
  0x707573696e6b61, -- pusinka
  0x70757374696e61, -- pustina
  0x7075746f766174, -- putovat
  0x707574796b61, -- putyka
  0x707972616d696461, -- pyramida
  0x7079736b, -- pysk
  0x707974656c, -- pytel
  0x726163656b, -- racek
  0x726163686f74, -- rachot
  0x72616469616365, -- radiace
  0x7261646e696365, -- radnice
  0x7261646f6e, -- radon
  0x72616674, -- raft
  0x7261676279, -- ragby
  0x72616b657461, -- raketa
  0x72616b6f76696e61, -- rakovina
  0x72616d656e6f, -- rameno
  0x72616d706f756368, -- rampouch
  0x72616e6465, -- rande
  0x726172616368, -- rarach
  0x726172697461, -- rarita
  0x7261736f766e61, -- rasovna
  0x7261737472, -- rastr
  0x7261746f6c657374, -- ratolest
  0x72617a616e6365, -- razance
  0x72617a69646c6f, -- razidlo
  0x726561676f766174, -- reagovat
  0x7265616b6365, -- reakce
  0x726563657074, -- recept
  0x726564616b746f72, -- redaktor
  0x7265666572656e74, -- referent
  0x7265666c6578, -- reflex
  0x72656a6e6f6b, -- rejnok
  0x72656b6c616d61, -- reklama
  0x72656b6f7264, -- rekord
  0x72656b727574, -- rekrut
  0x72656b746f72, -- rektor
  0x7265707574616365, -- reputace
  0x726576697a65, -- revize
  0x7265766d61, -- revma
  0x7265766f6c766572, -- revolver
  0x72657a65727661, -- rezerva
  0x7269736b6f766174, -- riskovat
  0x72697a696b6f, -- riziko
  0x726f626f74696b61, -- robotika
  0x726f646f6b6d656e, -- rodokmen
  0x726f686f766b61, -- rohovka
  0x726f6b6c65, -- rokle
  0x726f6b6f6b6f, -- rokoko
  0x726f6d616e65746f, -- romaneto
  0x726f706f766f64, -- ropovod
  0x726f7075636861, -- ropucha
  0x726f72656a73, -- rorejs
  0x726f736f6c, -- rosol
  0x726f73746c696e61, -- rostlina
  0x726f746d69737472, -- rotmistr
  0x726f746f706564, -- rotoped
  0x726f74756e6461, -- rotunda
  0x726f7562656e6b61, -- roubenka
  0x726f7563686f, -- roucho
  0x726f7570, -- roup
  0x726f757261, -- roura
  0x726f76696e61, -- rovina
  0x726f766e696365, -- rovnice
  0x726f7a626f72, -- rozbor
  0x726f7a63686f64, -- rozchod
  0x726f7a646174, -- rozdat
  0x726f7a657a6e6174, -- rozeznat
  0x726f7a686f646365, -- rozhodce
  0x726f7a696e6b61, -- rozinka
  0x726f7a6a657a64, -- rozjezd
  0x726f7a6b617a, -- rozkaz
  0x726f7a6c6f6861, -- rozloha
  0x726f7a6d6172, -- rozmar
  0x726f7a706164, -- rozpad
  0x726f7a72756368, -- rozruch
  0x726f7a736168, -- rozsah
  0x726f7a746f6b, -- roztok
  0x726f7a756d, -- rozum
  0x726f7a766f64, -- rozvod
  0x72756272696b61, -- rubrika
  0x7275636861646c6f, -- ruchadlo
  0x72756b6176696365, -- rukavice
  0x72756b6f706973, -- rukopis
  0x72796261, -- ryba
  0x7279626f6c6f76, -- rybolov
  0x727963686c6f7374, -- rychlost
  0x7279646c6f, -- rydlo
  0x72797061646c6f, -- rypadlo
  0x727974696e61, -- rytina
  0x72797a6f7374, -- ryzost
  0x73616469737461, -- sadista
  0x7361686174, -- sahat
  0x73616b6f, -- sako
  0x73616d6563, -- samec
  0x73616d697a646174, -- samizdat
  0x73616d6f7461, -- samota
  0x73616e69746b61, -- sanitka
  0x73617264696e6b61, -- sardinka
  0x736173616e6b61, -- sasanka
  0x736174656c6974, -- satelit
  0x73617a6261, -- sazba
  0x73617a656e696365, -- sazenice
  0x73626f72, -- sbor
  0x7363686f766174, -- schovat
  0x73656272616e6b61, -- sebranka
  0x736563657365, -- secese
  0x73656461646c6f, -- sedadlo
  0x736564696d656e74, -- sediment
  0x7365646c6f, -- sedlo
  0x7365686e6174, -- sehnat
  0x73656a6d6f7574, -- sejmout
  0x73656b657261, -- sekera
  0x73656b7461, -- sekta
  0x73656b756e6461, -- sekunda
  0x73656b766f6a65, -- sekvoje
  0x73656d656e6f, -- semeno
  0x73656e6f, -- seno
  0x736572766973, -- servis
  0x73657361646974, -- sesadit
  0x736573686f7261, -- seshora
  0x7365736b6f6b, -- seskok
  0x7365736c6174, -- seslat
  0x736573747261, -- sestra
  0x7365737576, -- sesuv
  0x73657379706174, -- sesypat
  0x7365746261, -- setba
  0x736574696e61, -- setina
  0x7365746b6174, -- setkat
  0x7365746e6f7574, -- setnout
  0x73657472766174, -- setrvat
  0x7365766572, -- sever
  0x73657a6e616d, -- seznam
  0x73686f6461, -- shoda
  0x7368726e6f7574, -- shrnout
  0x7369666f6e, -- sifon
  0x73696c6e696365, -- silnice
  0x7369726b61, -- sirka
  0x7369726f74656b, -- sirotek
  0x7369727570, -- sirup
  0x73697475616365, -- situace
  0x736b6166616e6472, -- skafandr
  0x736b616c69736b6f, -- skalisko
  0x736b616e7a656e, -- skanzen
  0x736b617574, -- skaut
  0x736b657074696b, -- skeptik
  0x736b696361, -- skica
  0x736b6c61646261, -- skladba
  0x736b6c656e696365, -- sklenice
  0x736b6c6f, -- sklo
  0x736b6c757a, -- skluz
  0x736b6f6261, -- skoba
  0x736b6f6b616e, -- skokan
  0x736b6f726f, -- skoro
  0x736b7269707461, -- skripta
  0x736b727a, -- skrz
  0x736b7570696e61, -- skupina
  0x736b766f7374, -- skvost
  0x736b76726e61, -- skvrna
  0x736c6162696b61, -- slabika
  0x736c616469646c6f, -- sladidlo
  0x736c616e696e61, -- slanina
  0x736c617374, -- slast
  0x736c61766e6f7374, -- slavnost
  0x736c65646f766174, -- sledovat
  0x736c65706563, -- slepec
  0x736c657661, -- sleva
  0x736c657a696e61, -- slezina
  0x736c6962, -- slib
  0x736c696e61, -- slina
  0x736c697a6e696365, -- sliznice
  0x736c6f6e, -- slon
  0x736c6f7570656b, -- sloupek
  0x736c6f766f, -- slovo
  0x736c756368, -- sluch
  0x736c756861, -- sluha
  0x736c756e6365, -- slunce
  0x736c75706b61, -- slupka
  0x736c7a61, -- slza
  0x736d6172616764, -- smaragd
  0x736d6574616e61, -- smetana
  0x736d696c7374766f, -- smilstvo
  0x736d6c6f757661, -- smlouva
  0x736d6f67, -- smog
  0x736d726164, -- smrad
  0x736d726b, -- smrk
  0x736d72746b61, -- smrtka
  0x736d7574656b, -- smutek
  0x736d79736c, -- smysl
  0x736e6164, -- snad
  0x736e616861, -- snaha
  0x736e6f62, -- snob
  0x736f626f7461, -- sobota
  0x736f636861, -- socha
  0x736f646f766b61, -- sodovka
  0x736f6b6f6c, -- sokol
  0x736f706b61, -- sopka
  0x736f747661, -- sotva
  0x736f75626f6a, -- souboj
  0x736f75636974, -- soucit
  0x736f75646365, -- soudce
  0x736f75686c6173, -- souhlas
  0x736f756c6164, -- soulad
  0x736f756d72616b, -- soumrak
  0x736f757072617661, -- souprava
  0x736f75736564, -- soused
  0x736f75746f6b, -- soutok
  0x736f757669736574, -- souviset
  0x7370616c6f766e61, -- spalovna
  0x737061736974656c, -- spasitel
  0x73706973, -- spis
  0x73706c6176, -- splav
  0x73706f64656b, -- spodek
  0x73706f6a656e6563, -- spojenec
  0x73706f6c75, -- spolu
  0x73706f6e7a6f72, -- sponzor
  0x73706f726e6f7374, -- spornost
  0x73706f75737461, -- spousta
  0x737072636861, -- sprcha
  0x73707573746974, -- spustit
  0x7372616e6461, -- sranda
  0x7372617a, -- sraz
  0x7372646365, -- srdce
  0x73726e61, -- srna
  0x73726e6563, -- srnec
  0x73726f766e6174, -- srovnat
  0x737270656e, -- srpen
  0x73727374, -- srst
  0x73727562, -- srub
  0x7374616e696365, -- stanice
  0x737461726f737461, -- starosta
  0x73746174696b61, -- statika
  0x737461766261, -- stavba
  0x737465686e6f, -- stehno
  0x7374657a6b61, -- stezka
  0x73746f646f6c61, -- stodola
  0x73746f6c656b, -- stolek
  0x73746f7061, -- stopa
  0x73746f726e6f, -- storno
  0x73746f75706174, -- stoupat
  0x737472616368, -- strach
  0x7374726573, -- stres
  0x737472686e6f7574, -- strhnout
  0x7374726f6d, -- strom
  0x737472756e61, -- struna
  0x737475646e61, -- studna
  0x737475706e696365, -- stupnice
  0x7374766f6c, -- stvol
  0x7374796b, -- styk
  0x7375626a656b74, -- subjekt
  0x73756274726f7079, -- subtropy
  0x737563686172, -- suchar
  0x7375646f7374, -- sudost
  0x73756b6e6f, -- sukno
  0x73756e646174, -- sundat
  0x73756e6f7574, -- sunout
  0x737572696b617461, -- surikata
  0x7375726f76696e61, -- surovina
  0x73766168, -- svah
  0x7376616c7374766f, -- svalstvo
  0x7376657472, -- svetr
  0x737661746261, -- svatba
  0x7376617a656b, -- svazek
  0x737669736c65, -- svisle
  0x73766974656b, -- svitek
  0x73766f626f6461, -- svoboda
  0x73766f6469646c6f, -- svodidlo
  0x73766f726b61, -- svorka
  0x7376726162, -- svrab
  0x73796b61766b61, -- sykavka
  0x73796b6f74, -- sykot
  0x73796e656b, -- synek
  0x73796e6f766563, -- synovec
  0x7379706174, -- sypat
  0x7379706b6f7374, -- sypkost
  0x7379726f766f7374, -- syrovost
  0x737973656c, -- sysel
  0x7379746f7374, -- sytost
  0x7461626c65746b61, -- tabletka
  0x746162756c65, -- tabule
  0x7461686f756e, -- tahoun
  0x74616a656d6e6f, -- tajemno
  0x74616a66756e, -- tajfun
  0x74616a6761, -- tajga
  0x74616a6974, -- tajit
  0x74616a6e6f7374, -- tajnost
  0x74616b74696b61, -- taktika
  0x74616d686c65, -- tamhle
  0x74616d706f6e, -- tampon
  0x74616e636f766174, -- tancovat
  0x74616e6563, -- tanec
  0x74616e6b6572, -- tanker
  0x746170657461, -- tapeta
  0x746176656e696e61, -- tavenina
  0x74617a6174656c, -- tazatel
  0x746563686e696b61, -- technika
  0x7465686479, -- tehdy
  0x74656b7574696e61, -- tekutina
  0x74656c65666f6e, -- telefon
  0x74656d6e6f7461, -- temnota
  0x74656e64656e6365, -- tendence
  0x74656e69737461, -- tenista
  0x74656e6f72, -- tenor
  0x7465706c6f7461, -- teplota
  0x7465706e61, -- tepna
  0x746570727665, -- teprve
  0x74657261706965, -- terapie
  0x7465726d6f736b61, -- termoska
  0x74657874696c, -- textil
  0x746963686f, -- ticho
  0x7469736b6f706973, -- tiskopis
  0x746974756c656b, -- titulek
  0x746b61646c6563, -- tkadlec
  0x746b616e696e61, -- tkanina
  0x746c61706b61, -- tlapka
  0x746c65736b6174, -- tleskat
  0x746c756b6f74, -- tlukot
  0x746c757061, -- tlupa
  0x746d656c, -- tmel
  0x746f616c657461, -- toaleta
  0x746f70696e6b61, -- topinka
  0x746f706f6c, -- topol
  0x746f727a6f, -- torzo
  0x746f756861, -- touha
  0x746f756c6563, -- toulec
  0x74726164696365, -- tradice
  0x7472616b746f72, -- traktor
  0x7472616d70, -- tramp
  0x7472617361, -- trasa
  0x7472617665727a61, -- traverza
  0x747265666974, -- trefit
  0x7472657374, -- trest
  0x7472657a6f72, -- trezor
  0x7472686176696e61, -- trhavina
  0x7472686c696e61, -- trhlina
  0x74726f636875, -- trochu
  0x74726f6a696365, -- trojice
  0x74726f736b61, -- troska
  0x74726f756261, -- trouba
  0x7472706365, -- trpce
  0x7472706974656c, -- trpitel
  0x7472706b6f7374, -- trpkost
  0x747275626563, -- trubec
  0x74727563686c6974, -- truchlit
  0x747275686c696365, -- truhlice
  0x74727573, -- trus
  0x7472766174, -- trvat
  0x74756479, -- tudy
  0x7475686e6f7574, -- tuhnout
  0x7475686f7374, -- tuhost
  0x74756e647261, -- tundra
  0x74757269737461, -- turista
  0x7475726e616a, -- turnaj
  0x74757a656d736b6f, -- tuzemsko
  0x747661726f68, -- tvaroh
  0x74766f726261, -- tvorba
  0x747672646f7374, -- tvrdost
  0x7476727a, -- tvrz
  0x74796772, -- tygr
  0x74796b6576, -- tykev
  0x75626f686f7374, -- ubohost
  0x75626f7a65, -- uboze
  0x7562726174, -- ubrat
  0x7562726f7573656b, -- ubrousek
  0x7562727573, -- ubrus
  0x756279746f766e61, -- ubytovna
  0x7563686f, -- ucho
  0x75637469766f7374, -- uctivost
  0x756469766974, -- udivit
  0x75687261646974, -- uhradit
  0x756a65646e6174, -- ujednat
  0x756a6973746974, -- ujistit
  0x756a6d6f7574, -- ujmout
  0x756b617a6174656c, -- ukazatel
  0x756b6c69646e6974, -- uklidnit
  0x756b6c6f6e6974, -- uklonit
  0x756b6f74766974, -- ukotvit
  0x756b726f6a6974, -- ukrojit
  0x756c696365, -- ulice
  0x756c697461, -- ulita
  0x756c6f766974, -- ulovit
  0x756d797661646c6f, -- umyvadlo
  0x756e61766974, -- unavit
  0x756e69666f726d61, -- uniforma
  0x756e696b6e6f7574, -- uniknout
  0x757061646e6f7574, -- upadnout
  0x75706c61746e6974, -- uplatnit
  0x75706c796e6f7574, -- uplynout
  0x75706f75746174, -- upoutat
  0x75707261766974, -- upravit
  0x7572616e, -- uran
  0x7572617a6974, -- urazit
  0x757365646e6f7574, -- usednout
  0x7573696c6f766174, -- usilovat
  0x75736d72746974, -- usmrtit
  0x75736e61646e6974, -- usnadnit
  0x75736e6f7574, -- usnout
  0x75736f75646974, -- usoudit
  0x7573746c6174, -- ustlat
  0x757374726e6f7574, -- ustrnout
  0x757461686f766174, -- utahovat
  0x75746b6174, -- utkat
  0x75746c756d6974, -- utlumit
  0x75746f6e6f7574, -- utonout
  0x75746f70656e6563, -- utopenec
  0x7574726f75736974, -- utrousit
  0x7576616c6974, -- uvalit
  0x75766f6c6e6974, -- uvolnit
  0x75766f7a6f766b61, -- uvozovka
  0x757a647261766974, -- uzdravit
  0x757a656c, -- uzel
  0x757a656e696e61, -- uzenina
  0x757a6c696e61, -- uzlina
  0x757a6e6174, -- uznat
  0x7661676f6e, -- vagon
  0x76616c636861, -- valcha
  0x76616c6f756e, -- valoun
  0x76616e61, -- vana
  0x76616e64616c, -- vandal
  0x76616e696c6b61, -- vanilka
  0x766172616e, -- varan
  0x76617268616e79, -- varhany
  0x7661726f766174, -- varovat
  0x7663656c6b75, -- vcelku
  0x7663686f64, -- vchod
  0x76646f7661, -- vdova
  0x766564726f, -- vedro
  0x7665676574616365, -- vegetace
  0x76656a6365, -- vejce
  0x76656c626c6f7564, -- velbloud
  0x76656c65747268, -- veletrh
  0x76656c6974656c, -- velitel
  0x76656c6d6f63, -- velmoc
  0x76656c72796261, -- velryba
  0x76656e6b6f76, -- venkov
  0x766572616e6461, -- veranda
  0x7665727a65, -- verze
  0x766573656c6b61, -- veselka
  0x7665736b727a65, -- veskrze
  0x7665736e696365, -- vesnice
  0x766573706f6475, -- vespodu
  0x7665737461, -- vesta
  0x7665746572696e61, -- veterina
  0x76657665726b61, -- veverka
  0x76696272616365, -- vibrace
  0x7669636872, -- vichr
  0x766964656f687261, -- videohra
  0x766964696e61, -- vidina
  0x7669646c65, -- vidle
  0x76696c61, -- vila
  0x76696e696365, -- vinice
  0x7669736574, -- viset
  0x766974616c697461, -- vitalita
  0x76697a65, -- vize
  0x76697a69746b61, -- vizitka
  0x766a657a64, -- vjezd
  0x766b6c6164, -- vklad
  0x766b7573, -- vkus
  0x766c616a6b61, -- vlajka
  0x766c616b, -- vlak
  0x766c61736563, -- vlasec
  0x766c65766f, -- vlevo
  0x766c686b6f7374, -- vlhkost
  0x766c6976, -- vliv
  0x766c6e6f766b61, -- vlnovka
  0x766c6f75706174, -- vloupat
  0x766e75636f766174, -- vnucovat
  0x766e756b, -- vnuk
  0x766f6461, -- voda
  0x766f6469766f7374, -- vodivost
  0x766f646f7a6e616b, -- vodoznak
  0x766f647374766f, -- vodstvo
  0x766f6a656e736b79, -- vojensky
  0x766f6a6e61, -- vojna
  0x766f6a736b6f, -- vojsko
  0x766f6c616e74, -- volant
  0x766f6c6261, -- volba
  0x766f6c6974, -- volit
  0x766f6c6e6f, -- volno
  0x766f736b6f766b61, -- voskovka
  0x766f7a69646c6f, -- vozidlo
  0x766f7a6f766e61, -- vozovna
  0x76707261766f, -- vpravo
  0x767261626563, -- vrabec
  0x767261636574, -- vracet
  0x76726168, -- vrah
  0x7672617461, -- vrata
  0x76726261, -- vrba
  0x767263686f6c656b, -- vrcholek
  0x7672686174, -- vrhat
  0x767273747661, -- vrstva
  0x767274756c65, -- vrtule
  0x767361646974, -- vsadit
  0x7673746f75706974, -- vstoupit
  0x7673747570, -- vstup
  0x76746970, -- vtip
  0x76796261766974, -- vybavit
  0x767962726174, -- vybrat
  0x767963686f766174, -- vychovat
  0x7679646174, -- vydat
  0x7679647261, -- vydra
  0x7679666f746974, -- vyfotit
  0x7679686c65646174, -- vyhledat
  0x7679686e6f7574, -- vyhnout
  0x7679686f646974, -- vyhodit
  0x7679687261646974, -- vyhradit
  0x76796875626974, -- vyhubit
  0x76796a61736e6974, -- vyjasnit
  0x76796a6574, -- vyjet
  0x76796a6d6f7574, -- vyjmout
  0x76796b6c6f706974, -- vyklopit
  0x76796b6f6e6174, -- vykonat
  0x76796c656b6174, -- vylekat
  0x76796d617a6174, -- vymazat
  0x76796d657a6974, -- vymezit
  0x76796d697a6574, -- vymizet
  0x76796d79736c6574, -- vymyslet
  0x76796e6563686174, -- vynechat
  0x76796e696b6174, -- vynikat
  0x76796e75746974, -- vynutit
  0x76797061646174, -- vypadat
  0x7679706c61746974, -- vyplatit
  0x7679707261766974, -- vypravit
  0x7679707573746974, -- vypustit
  0x767972617a6974, -- vyrazit
  0x7679726f766e6174, -- vyrovnat
  0x767972766174, -- vyrvat
  0x7679736c6f766974, -- vyslovit
  0x7679736f6b6f, -- vysoko
  0x7679737461766974, -- vystavit
  0x767973756e6f7574, -- vysunout
  0x76797379706174, -- vysypat
  0x76797461736974, -- vytasit
  0x76797465736174, -- vytesat
  0x7679747261746974, -- vytratit
  0x767976696e6f7574, -- vyvinout
  0x7679766f6c6174, -- vyvolat
  0x7679767268656c, -- vyvrhel
  0x76797a646f626974, -- vyzdobit
  0x76797a6e6174, -- vyznat
  0x767a616475, -- vzadu
  0x767a6275646974, -- vzbudit
  0x767a63686f706974, -- vzchopit
  0x767a646f72, -- vzdor
  0x767a64756368, -- vzduch
  0x767a647963686174, -- vzdychat
  0x767a6573747570, -- vzestup
  0x767a686c6564656d, -- vzhledem
  0x767a6b617a, -- vzkaz
  0x767a6c796b6174, -- vzlykat
  0x767a6e696b, -- vznik
  0x767a6f72656b, -- vzorek
  0x767a706f757261, -- vzpoura
  0x767a746168, -- vztah
  0x767a74656b, -- vztek
  0x78796c6f666f6e, -- xylofon
  0x7a6162726174, -- zabrat
  0x7a616279646c6574, -- zabydlet
  0x7a6163686f766174, -- zachovat
  0x7a616461726d6f, -- zadarmo
  0x7a616475736974, -- zadusit
  0x7a61666f756b6174, -- zafoukat
  0x7a61686c746974, -- zahltit
  0x7a61686f646974, -- zahodit
  0x7a616872616461, -- zahrada
  0x7a6168796e6f7574, -- zahynout
  0x7a616a61746563, -- zajatec
  0x7a616a6574, -- zajet
  0x7a616a6973746974, -- zajistit
  0x7a616b6c65706174, -- zaklepat
  0x7a616b6f75706974, -- zakoupit
  0x7a616c65706974, -- zalepit
  0x7a616d657a6974, -- zamezit
  0x7a616d6f746174, -- zamotat
  0x7a616d79736c6574, -- zamyslet
  0x7a616e6563686174, -- zanechat
  0x7a616e696b6174, -- zanikat
  0x7a61706c61746974, -- zaplatit
  0x7a61706f6a6974, -- zapojit
  0x7a6170736174, -- zapsat
  0x7a6172617a6974, -- zarazit
  0x7a61737461766974, -- zastavit
  0x7a6173756e6f7574, -- zasunout
  0x7a6174616a6974, -- zatajit
  0x7a6174656d6e6974, -- zatemnit
  0x7a61746b6e6f7574, -- zatknout
  0x7a61756a6d6f7574, -- zaujmout
  0x7a6176616c6974, -- zavalit
  0x7a6176656c6574, -- zavelet
  0x7a6176696e6974, -- zavinit
  0x7a61766f6c6174, -- zavolat
  0x7a617672746174, -- zavrtat
  0x7a617a766f6e6974, -- zazvonit
  0x7a6261766974, -- zbavit
  0x7a6272757375, -- zbrusu
  0x7a6275646f766174, -- zbudovat
  0x7a627974656b, -- zbytek
  0x7a64616c656b61, -- zdaleka
  0x7a6461726d61, -- zdarma
  0x7a6461746e6f7374, -- zdatnost
  0x7a6469766f, -- zdivo
  0x7a646f626974, -- zdobit
  0x7a64726f6a, -- zdroj
  0x7a64766968, -- zdvih
  0x7a64796d61646c6f, -- zdymadlo
  0x7a656c656e696e61, -- zelenina
  0x7a656d616e, -- zeman
  0x7a656d696e61, -- zemina
  0x7a6570746174, -- zeptat
  0x7a657a616475, -- zezadu
  0x7a657a646f6c61, -- zezdola
  0x7a6861746974, -- zhatit
  0x7a686c746e6f7574, -- zhltnout
  0x7a686c75626f6b61, -- zhluboka
  0x7a686f746f766974, -- zhotovit
  0x7a6872756261, -- zhruba
  0x7a696d61, -- zima
  0x7a696d6e696365, -- zimnice
  0x7a6a656d6e6974, -- zjemnit
  0x7a6b6c616d6174, -- zklamat
  0x7a6b6f756d6174, -- zkoumat
  0x7a6b7261746b61, -- zkratka
  0x7a6b756d61766b61, -- zkumavka
  0x7a6c61746f, -- zlato
  0x7a6c65686b61, -- zlehka
  0x7a6c6f6261, -- zloba
  0x7a6c6f6d, -- zlom
  0x7a6c6f7374, -- zlost
  0x7a6c6f7a76796b, -- zlozvyk
  0x7a6d61706f766174, -- zmapovat
  0x7a6d6172, -- zmar
  0x7a6d6174656b, -- zmatek
  0x7a6d696a65, -- zmije
  0x7a6d697a6574, -- zmizet
  0x7a6d6f636e6974, -- zmocnit
  0x7a6d6f64726174, -- zmodrat
  0x7a6d727a6c696e61, -- zmrzlina
  0x7a6d75746f766174, -- zmutovat
  0x7a6e616b, -- znak
  0x7a6e616c6f7374, -- znalost
  0x7a6e616d656e6174, -- znamenat
  0x7a6e6f7675, -- znovu
  0x7a6f6272617a6974, -- zobrazit
  0x7a6f7461766974, -- zotavit
  0x7a6f7562656b, -- zoubek
  0x7a6f7566616c65, -- zoufale
  0x7a706c6f646974, -- zplodit
  0x7a706f6d616c6974, -- zpomalit
  0x7a7072617661, -- zprava
  0x7a70726f73746974, -- zprostit
  0x7a707275646b61, -- zprudka
  0x7a70727675, -- zprvu
  0x7a72616461, -- zrada
  0x7a72616e6974, -- zranit
  0x7a726361646c6f, -- zrcadlo
  0x7a726e69746f7374, -- zrnitost
  0x7a726e6f, -- zrno
  0x7a726f766e61, -- zrovna
  0x7a727963686c6974, -- zrychlit
  0x7a727a61766f7374, -- zrzavost
  0x7a7469636861, -- zticha
  0x7a747261746974, -- ztratit
  0x7a75626f76696e61, -- zubovina
  0x7a756272, -- zubr
  0x7a7665646e6f7574, -- zvednout
  0x7a76656e6b75, -- zvenku
  0x7a766573656c61, -- zvesela
  0x7a766f6e, -- zvon
  0x7a76726174, -- zvrat
  0x7a76756b6f766f64, -- zvukovod
  0x7a76796b] -- zvyk

/-- wordlists.go:12311-14360 `CzechWordlist`. -/
def CzechWordlist : List GoString := unpackWords CzechWordlistPacked

end Btc
