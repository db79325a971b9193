import Verif.Words.Basic

/-! Generated from /repo/wordlists.go, lines 6158-8207: each word is its UTF-8 bytes read as one
big-endian number (`0x61626c65` is "able"); the word is in the comment. -/

namespace Btc

set_option maxRecDepth 20000 in
/-- wordlists.go:6158-8207 `ItalianWordlist`, in order, packed. -/
def ItalianWordlistPacked : List Nat := [
  0x616261636f, -- abaco
  0x61626261676c696f, -- abbaglio
  0x616262696e61746f, -- abbinato
  0x6162657465, -- abete
  0x61626973736f, -- abisso
  0x61626f6c697265, -- abolire
  0x616272617369766f, -- abrasivo
  0x6162726f6761746f, -- abrogato
  0x6163636164657265, -- accadere
  0x616363656e6e6f, -- accenno
  0x616363757361746f, -- accusato
  0x616365746f6e65, -- acetone
  0x616368696c6c65, -- achille
  0x616369646f, -- acido
  0x6163717561, -- acqua
  0x61637265, -- acre
  0x616372696c69636f, -- acrilico
  0x6163726f62617461, -- acrobata
  0x616375746f, -- acuto
  0x61646167696f, -- adagio
  0x616464656269746f, -- addebito
  0x6164646f6d65, -- addome
  0x616465677561746f, -- adeguato
  0x61646572697265, -- aderire
  0x6164697065, -- adipe
  0x61646f7474617265, -- adottare
  0x6164756c617265, -- adulare
  0x6166666162696c65, -- affabile
  0x6166666574746f, -- affetto
  0x6166666973736f, -- affisso
  0x61666672616e746f, -- affranto
  0x61666f7269736d61, -- aforisma
  0x61666f736f, -- afoso
  0x6166726963616e6f, -- africano
  0x6167617665, -- agave
  0x6167656e7465, -- agente
  0x616765766f6c65, -- agevole
  0x616767616e63696f, -- aggancio
  0x6167697265, -- agire
  0x61676974617265, -- agitare
  0x61676f6e69736d6f, -- agonismo
  0x61677269636f6c6f, -- agricolo
  0x616772756d65746f, -- agrumeto
  0x6167757a7a6f, -- aguzzo
  0x616c616261726461, -- alabarda
  0x616c61746f, -- alato
  0x616c626174726f, -- albatro
  0x616c62657261746f, -- alberato
  0x616c626f, -- albo
  0x616c62756d65, -- albume
  0x616c6365, -- alce
  0x616c636f6c69636f, -- alcolico
  0x616c6574746f6e65, -- alettone
  0x616c6661, -- alfa
  0x616c6765627261, -- algebra
  0x616c69616e7465, -- aliante
  0x616c696269, -- alibi
  0x616c696d656e746f, -- alimento
  0x616c6c616761746f, -- allagato
  0x616c6c6567726f, -- allegro
  0x616c6c6965766f, -- allievo
  0x616c6c6f646f6c61, -- allodola
  0x616c6c757369766f, -- allusivo
  0x616c6d656e6f, -- almeno
  0x616c6f67656e6f, -- alogeno
  0x616c70616361, -- alpaca
  0x616c706573747265, -- alpestre
  0x616c74616c656e61, -- altalena
  0x616c7465726e6f, -- alterno
  0x616c74696363696f, -- alticcio
  0x616c74726f7665, -- altrove
  0x616c756e6e6f, -- alunno
  0x616c76656f6c6f, -- alveolo
  0x616c7a617265, -- alzare
  0x616d616c67616d61, -- amalgama
  0x616d616e697461, -- amanita
  0x616d6172656e61, -- amarena
  0x616d6269746f, -- ambito
  0x616d627261746f, -- ambrato
  0x616d656261, -- ameba
  0x616d6572696361, -- america
  0x616d657469737461, -- ametista
  0x616d69636f, -- amico
  0x616d6d6173736f, -- ammasso
  0x616d6d656e6461, -- ammenda
  0x616d6d6972617265, -- ammirare
  0x616d6d6f6e69746f, -- ammonito
  0x616d6f7265, -- amore
  0x616d70696f, -- ampio
  0x616d706c69617265, -- ampliare
  0x616d756c65746f, -- amuleto
  0x616e61636172646f, -- anacardo
  0x616e616772616665, -- anagrafe
  0x616e616c69737461, -- analista
  0x616e617263686961, -- anarchia
  0x616e61747261, -- anatra
  0x616e6361, -- anca
  0x616e63656c6c61, -- ancella
  0x616e636f7261, -- ancora
  0x616e64617265, -- andare
  0x616e64726561, -- andrea
  0x616e656c6c6f, -- anello
  0x616e67656c6f, -- angelo
  0x616e676f6c617265, -- angolare
  0x616e677573746f, -- angusto
  0x616e696d61, -- anima
  0x616e6e6567617265, -- annegare
  0x616e6e696461746f, -- annidato
  0x616e6e6f, -- anno
  0x616e6e756e63696f, -- annuncio
  0x616e6f6e696d6f, -- anonimo
  0x616e74696369706f, -- anticipo
  0x616e7a69, -- anzi
  0x6170617469636f, -- apatico
  0x6170657274757261, -- apertura
  0x61706f6465, -- apode
  0x6170706172697265, -- apparire
  0x617070657469746f, -- appetito
  0x6170706f6767696f, -- appoggio
  0x617070726f646f, -- approdo
  0x617070756e746f, -- appunto
  0x617072696c65, -- aprile
  0x61726162696361, -- arabica
  0x6172616368696465, -- arachide
  0x617261676f737461, -- aragosta
  0x6172616c64696361, -- araldica
  0x6172616e63696f, -- arancio
  0x61726174757261, -- aratura
  0x6172617a7a6f, -- arazzo
  0x6172626974726f, -- arbitro
  0x617263686976696f, -- archivio
  0x61726469746f, -- ardito
  0x6172656e696c65, -- arenile
  0x617267656e746f, -- argento
  0x617267696e65, -- argine
  0x61726775746f, -- arguto
  0x61726961, -- aria
  0x61726d6f6e6961, -- armonia
  0x61726e657365, -- arnese
  0x617272656461746f, -- arredato
  0x617272696e6761, -- arringa
  0x6172726f73746f, -- arrosto
  0x617273656e69636f, -- arsenico
  0x6172736f, -- arso
  0x6172746566696365, -- artefice
  0x61727a696c6c6f, -- arzillo
  0x617363697574746f, -- asciutto
  0x6173636f6c746f, -- ascolto
  0x617365707369, -- asepsi
  0x617365747469636f, -- asettico
  0x617366616c746f, -- asfalto
  0x6173696e6f, -- asino
  0x61736f6c61, -- asola
  0x617370697261746f, -- aspirato
  0x617370726f, -- aspro
  0x617373616767696f, -- assaggio
  0x61737365, -- asse
  0x6173736f6c75746f, -- assoluto
  0x6173737572646f, -- assurdo
  0x61737461, -- asta
  0x617374656e75746f, -- astenuto
  0x617374696365, -- astice
  0x617374726174746f, -- astratto
  0x6174617669636f, -- atavico
  0x61746569736d6f, -- ateismo
  0x61746f6d69636f, -- atomico
  0x61746f6e6f, -- atono
  0x617474657361, -- attesa
  0x6174746976617265, -- attivare
  0x6174746f726e6f, -- attorno
  0x6174747269746f, -- attrito
  0x61747475616c65, -- attuale
  0x617573696c696f, -- ausilio
  0x61757374726961, -- austria
  0x61757469737461, -- autista
  0x6175746f6e6f6d6f, -- autonomo
  0x617574756e6e6f, -- autunno
  0x6176616e7a61746f, -- avanzato
  0x6176657265, -- avere
  0x617676656e697265, -- avvenire
  0x61767669736f, -- avviso
  0x6176766f6c67657265, -- avvolgere
  0x617a696f6e65, -- azione
  0x617a6f746f, -- azoto
  0x617a7a696d6f, -- azzimo
  0x617a7a7572726f, -- azzurro
  0x626162656c65, -- babele
  0x62616363616e6f, -- baccano
  0x626163696e6f, -- bacino
  0x6261636f, -- baco
  0x62616465737361, -- badessa
  0x626164696c617461, -- badilata
  0x6261676e61746f, -- bagnato
  0x6261697461, -- baita
  0x62616c636f6e65, -- balcone
  0x62616c646f, -- baldo
  0x62616c656e61, -- balena
  0x62616c6c617461, -- ballata
  0x62616c7a616e6f, -- balzano
  0x62616d62696e6f, -- bambino
  0x62616e64697265, -- bandire
  0x626172616f6e6461, -- baraonda
  0x6261726261726f, -- barbaro
  0x6261726361, -- barca
  0x62617269746f6e6f, -- baritono
  0x6261726c756d65, -- barlume
  0x6261726f63636f, -- barocco
  0x626173696c69636f, -- basilico
  0x626173736f, -- basso
  0x6261746f737461, -- batosta
  0x6261747475746f, -- battuto
  0x6261756c65, -- baule
  0x62617661, -- bava
  0x6261766f7361, -- bavosa
  0x626563636f, -- becco
  0x6265666661, -- beffa
  0x62656c67696f, -- belgio
  0x62656c7661, -- belva
  0x62656e6461, -- benda
  0x62656e65766f6c65, -- benevole
  0x62656e69676e6f, -- benigno
  0x62656e7a696e61, -- benzina
  0x62657265, -- bere
  0x6265726c696e61, -- berlina
  0x62657461, -- beta
  0x626962697461, -- bibita
  0x62696369, -- bici
  0x6269646f6e65, -- bidone
  0x62696669646f, -- bifido
  0x62696761, -- biga
  0x62696c616e636961, -- bilancia
  0x62696d626f, -- bimbo
  0x62696e6f636f6c6f, -- binocolo
  0x62696f6c6f676f, -- biologo
  0x626970656465, -- bipede
  0x6269706f6c617265, -- bipolare
  0x62697262616e7465, -- birbante
  0x6269727261, -- birra
  0x626973636f74746f, -- biscotto
  0x6269736573746f, -- bisesto
  0x6269736e6f6e6e6f, -- bisnonno
  0x6269736f6e7465, -- bisonte
  0x62697374757269, -- bisturi
  0x62697a7a6172726f, -- bizzarro
  0x626c616e646f, -- blando
  0x626c61747461, -- blatta
  0x626f6c6c69746f, -- bollito
  0x626f6e696669636f, -- bonifico
  0x626f72646f, -- bordo
  0x626f73636f, -- bosco
  0x626f74616e69636f, -- botanico
  0x626f7474696e6f, -- bottino
  0x626f7a7a6f6c6f, -- bozzolo
  0x6272616363696f, -- braccio
  0x6272616469706f, -- bradipo
  0x6272616d61, -- brama
  0x6272616e6361, -- branca
  0x62726176757261, -- bravura
  0x62726574656c6c61, -- bretella
  0x627265766574746f, -- brevetto
  0x6272657a7a61, -- brezza
  0x627269676c6961, -- briglia
  0x6272696c6c616e7465, -- brillante
  0x6272696e64617265, -- brindare
  0x62726f63636f6c6f, -- broccolo
  0x62726f646f, -- brodo
  0x62726f6e7a696e61, -- bronzina
  0x6272756c6c6f, -- brullo
  0x6272756e6f, -- bruno
  0x627562626f6e65, -- bubbone
  0x62756361, -- buca
  0x627564696e6f, -- budino
  0x627566666f6e65, -- buffone
  0x6275696f, -- buio
  0x62756c626f, -- bulbo
  0x62756f6e6f, -- buono
  0x6275726c6f6e65, -- burlone
  0x6275727261736361, -- burrasca
  0x627573736f6c61, -- bussola
  0x6275737461, -- busta
  0x6361646574746f, -- cadetto
  0x63616475636f, -- caduco
  0x63616c616d61726f, -- calamaro
  0x63616c636f6c6f, -- calcolo
  0x63616c65737365, -- calesse
  0x63616c6962726f, -- calibro
  0x63616c6d6f, -- calmo
  0x63616c6f726961, -- caloria
  0x63616d62757361, -- cambusa
  0x63616d6572617461, -- camerata
  0x63616d69636961, -- camicia
  0x63616d6d696e6f, -- cammino
  0x63616d6f6c61, -- camola
  0x63616d70616c65, -- campale
  0x63616e617061, -- canapa
  0x63616e64656c61, -- candela
  0x63616e65, -- cane
  0x63616e696e6f, -- canino
  0x63616e6f74746f, -- canotto
  0x63616e74696e61, -- cantina
  0x636170616365, -- capace
  0x636170656c6c6f, -- capello
  0x63617069746f6c6f, -- capitolo
  0x6361706f6769726f, -- capogiro
  0x6361707065726f, -- cappero
  0x6361707261, -- capra
  0x63617073756c61, -- capsula
  0x6361726170616365, -- carapace
  0x6361726361737361, -- carcassa
  0x636172646f, -- cardo
  0x63617269736d61, -- carisma
  0x6361726f76616e61, -- carovana
  0x636172726574746f, -- carretto
  0x636172746f6c696e61, -- cartolina
  0x636173616363696f, -- casaccio
  0x63617363617461, -- cascata
  0x63617365726d61, -- caserma
  0x6361736f, -- caso
  0x636173736f6e65, -- cassone
  0x63617374656c6c6f, -- castello
  0x63617375616c65, -- casuale
  0x63617461737461, -- catasta
  0x636174656e61, -- catena
  0x63617472616d65, -- catrame
  0x636175746f, -- cauto
  0x636176696c6c6f, -- cavillo
  0x6365646962696c65, -- cedibile
  0x63656472617461, -- cedrata
  0x636566616c6f, -- cefalo
  0x63656c65627265, -- celebre
  0x63656c6c756c617265, -- cellulare
  0x63656e61, -- cena
  0x63656e6f6e65, -- cenone
  0x63656e746573696d6f, -- centesimo
  0x636572616d696361, -- ceramica
  0x63657263617265, -- cercare
  0x636572746f, -- certo
  0x636572756d65, -- cerume
  0x63657276656c6c6f, -- cervello
  0x6365736f6961, -- cesoia
  0x636573706f, -- cespo
  0x6365746f, -- ceto
  0x6368656c61, -- chela
  0x63686961726f, -- chiaro
  0x636869636361, -- chicca
  0x6368696564657265, -- chiedere
  0x6368696d657261, -- chimera
  0x6368696e61, -- china
  0x636869727572676f, -- chirurgo
  0x6368697461727261, -- chitarra
  0x6369616f, -- ciao
  0x6369636c69736d6f, -- ciclismo
  0x63696672617265, -- cifrare
  0x6369676e6f, -- cigno
  0x63696c696e64726f, -- cilindro
  0x63696f74746f6c6f, -- ciottolo
  0x6369726361, -- circa
  0x636972726f7369, -- cirrosi
  0x6369747269636f, -- citrico
  0x636974746164696e6f, -- cittadino
  0x63697566666f, -- ciuffo
  0x63697665747461, -- civetta
  0x636976696c65, -- civile
  0x636c61737369636f, -- classico
  0x636c696e696361, -- clinica
  0x636c6f726f, -- cloro
  0x636f63636f, -- cocco
  0x636f646172646f, -- codardo
  0x636f64696365, -- codice
  0x636f6572656e7465, -- coerente
  0x636f676e6f6d65, -- cognome
  0x636f6c6c617265, -- collare
  0x636f6c6d61746f, -- colmato
  0x636f6c6f7265, -- colore
  0x636f6c706f736f, -- colposo
  0x636f6c74697661746f, -- coltivato
  0x636f6c7a61, -- colza
  0x636f6d61, -- coma
  0x636f6d657461, -- cometa
  0x636f6d6d616e646f, -- commando
  0x636f6d6f646f, -- comodo
  0x636f6d7075746572, -- computer
  0x636f6d756e65, -- comune
  0x636f6e6369736f, -- conciso
  0x636f6e6475727265, -- condurre
  0x636f6e6665726d61, -- conferma
  0x636f6e67656c617265, -- congelare
  0x636f6e69756765, -- coniuge
  0x636f6e6e6573736f, -- connesso
  0x636f6e6f7363657265, -- conoscere
  0x636f6e73756d6f, -- consumo
  0x636f6e74696e756f, -- continuo
  0x636f6e7665676e6f, -- convegno
  0x636f706572746f, -- coperto
  0x636f70696f6e65, -- copione
  0x636f70706961, -- coppia
  0x636f7072696361706f, -- copricapo
  0x636f72617a7a61, -- corazza
  0x636f7264617461, -- cordata
  0x636f72696361746f, -- coricato
  0x636f726e696365, -- cornice
  0x636f726f6c6c61, -- corolla
  0x636f72706f, -- corpo
  0x636f727265646f, -- corredo
  0x636f72736961, -- corsia
  0x636f7274657365, -- cortese
  0x636f736d69636f, -- cosmico
  0x636f7374616e7465, -- costante
  0x636f7474757261, -- cottura
  0x636f7661746f, -- covato
  0x63726174657265, -- cratere
  0x6372617661747461, -- cravatta
  0x63726561746f, -- creato
  0x63726564657265, -- credere
  0x6372656d6f736f, -- cremoso
  0x6372657363697461, -- crescita
  0x6372657461, -- creta
  0x6372696365746f, -- criceto
  0x6372696e616c65, -- crinale
  0x6372697369, -- crisi
  0x6372697469636f, -- critico
  0x63726f6365, -- croce
  0x63726f6e616361, -- cronaca
  0x63726f7374617461, -- crostata
  0x6372756369616c65, -- cruciale
  0x637275736361, -- crusca
  0x637563697265, -- cucire
  0x637563756c6f, -- cuculo
  0x637567696e6f, -- cugino
  0x63756c6c61746f, -- cullato
  0x6375706f6c61, -- cupola
  0x63757261746f7265, -- curatore
  0x637572736f7265, -- cursore
  0x637572766f, -- curvo
  0x63757363696e6f, -- cuscino
  0x637573746f6465, -- custode
  0x6461646f, -- dado
  0x6461696e6f, -- daino
  0x64616c6d617461, -- dalmata
  0x64616d6572696e6f, -- damerino
  0x64616e69656c61, -- daniela
  0x64616e6e6f736f, -- dannoso
  0x64616e7a617265, -- danzare
  0x64617461746f, -- datato
  0x646176616e7469, -- davanti
  0x6461767665726f, -- davvero
  0x6465627574746f, -- debutto
  0x646563656e6e696f, -- decennio
  0x64656369736f, -- deciso
  0x6465636c696e6f, -- declino
  0x6465636f6c6c6f, -- decollo
  0x6465637265746f, -- decreto
  0x646564696361746f, -- dedicato
  0x646566696e69746f, -- definito
  0x6465666f726d65, -- deforme
  0x6465676e6f, -- degno
  0x64656c6567617265, -- delegare
  0x64656c66696e6f, -- delfino
  0x64656c6972696f, -- delirio
  0x64656c7461, -- delta
  0x64656d656e7a61, -- demenza
  0x64656e6f7461746f, -- denotato
  0x64656e74726f, -- dentro
  0x6465706f7369746f, -- deposito
  0x6465726170617461, -- derapata
  0x6465726976617265, -- derivare
  0x6465726f6761, -- deroga
  0x64657363726974746f, -- descritto
  0x6465736572746f, -- deserto
  0x64657369646572696f, -- desiderio
  0x646573756d657265, -- desumere
  0x64657465727369766f, -- detersivo
  0x6465766f746f, -- devoto
  0x6469616d6574726f, -- diametro
  0x646963656d627265, -- dicembre
  0x64696564726f, -- diedro
  0x64696665736f, -- difeso
  0x6469666675736f, -- diffuso
  0x6469676572697265, -- digerire
  0x6469676974616c65, -- digitale
  0x64696c7576696f, -- diluvio
  0x64696e616d69636f, -- dinamico
  0x64696e6e616e7a69, -- dinnanzi
  0x646970696e746f, -- dipinto
  0x6469706c6f6d61, -- diploma
  0x6469706f6c6f, -- dipolo
  0x6469726164617265, -- diradare
  0x64697265, -- dire
  0x6469726f74746f, -- dirotto
  0x64697275706f, -- dirupo
  0x6469736167696f, -- disagio
  0x646973637265746f, -- discreto
  0x64697366617265, -- disfare
  0x64697367656c6f, -- disgelo
  0x646973706f73746f, -- disposto
  0x64697374616e7a61, -- distanza
  0x646973756d616e6f, -- disumano
  0x6469746f, -- dito
  0x646976616e6f, -- divano
  0x646976656c746f, -- divelto
  0x6469766964657265, -- dividere
  0x6469766f7261746f, -- divorato
  0x646f626c6f6e65, -- doblone
  0x646f63656e7465, -- docente
  0x646f67616e616c65, -- doganale
  0x646f676d61, -- dogma
  0x646f6c6365, -- dolce
  0x646f6d61746f, -- domato
  0x646f6d656e696361, -- domenica
  0x646f6d696e617265, -- dominare
  0x646f6e646f6c6f, -- dondolo
  0x646f6e6f, -- dono
  0x646f726d697265, -- dormire
  0x646f7465, -- dote
  0x646f74746f7265, -- dottore
  0x646f7675746f, -- dovuto
  0x646f7a7a696e61, -- dozzina
  0x647261676f, -- drago
  0x64727569646f, -- druido
  0x64756262696f, -- dubbio
  0x6475626974617265, -- dubitare
  0x647563616c65, -- ducale
  0x64756e61, -- duna
  0x64756f6d6f, -- duomo
  0x6475706c696365, -- duplice
  0x647572617475726f, -- duraturo
  0x6562616e6f, -- ebano
  0x6563636573736f, -- eccesso
  0x6563636f, -- ecco
  0x65636c69737369, -- eclissi
  0x65636f6e6f6d6961, -- economia
  0x6564657261, -- edera
  0x656469636f6c61, -- edicola
  0x6564696c65, -- edile
  0x656469746f726961, -- editoria
  0x65647563617265, -- educare
  0x6567656d6f6e6961, -- egemonia
  0x65676c69, -- egli
  0x65676f69736d6f, -- egoismo
  0x6567726567696f, -- egregio
  0x656c61626f7261746f, -- elaborato
  0x656c617267697265, -- elargire
  0x656c6567616e7465, -- elegante
  0x656c656e6361746f, -- elencato
  0x656c6574746f, -- eletto
  0x656c6576617265, -- elevare
  0x656c6669636f, -- elfico
  0x656c696361, -- elica
  0x656c6d6f, -- elmo
  0x656c7361, -- elsa
  0x656c75736f, -- eluso
  0x656d616e61746f, -- emanato
  0x656d626c656d61, -- emblema
  0x656d6573736f, -- emesso
  0x656d69726f, -- emiro
  0x656d6f7469766f, -- emotivo
  0x656d6f7a696f6e65, -- emozione
  0x656d70697269636f, -- empirico
  0x656d756c6f, -- emulo
  0x656e64656d69636f, -- endemico
  0x656e6475726f, -- enduro
  0x656e6572676961, -- energia
  0x656e66617369, -- enfasi
  0x656e6f74656361, -- enoteca
  0x656e7472617265, -- entrare
  0x656e7a696d61, -- enzima
  0x65706174697465, -- epatite
  0x6570696c6f676f, -- epilogo
  0x657069736f64696f, -- episodio
  0x65706f63616c65, -- epocale
  0x657070757265, -- eppure
  0x65717561746f7265, -- equatore
  0x65726172696f, -- erario
  0x65726261, -- erba
  0x6572626f736f, -- erboso
  0x6572656465, -- erede
  0x6572656d697461, -- eremita
  0x65726967657265, -- erigere
  0x65726d657469636f, -- ermetico
  0x65726f65, -- eroe
  0x65726f7369766f, -- erosivo
  0x657272616e7465, -- errante
  0x657361676f6e6f, -- esagono
  0x6573616d65, -- esame
  0x6573616e696d65, -- esanime
  0x6573617564697265, -- esaudire
  0x65736361, -- esca
  0x6573656d70696f, -- esempio
  0x657365726369746f, -- esercito
  0x6573696269746f, -- esibito
  0x65736967656e7465, -- esigente
  0x6573697374657265, -- esistere
  0x657369746f, -- esito
  0x65736f6661676f, -- esofago
  0x65736f727461746f, -- esortato
  0x65736f736f, -- esoso
  0x657370616e736f, -- espanso
  0x657370726573736f, -- espresso
  0x657373656e7a61, -- essenza
  0x6573736f, -- esso
  0x65737465736f, -- esteso
  0x657374696d617265, -- estimare
  0x6573746f6e6961, -- estonia
  0x657374726f736f, -- estroso
  0x6573756c74617265, -- esultare
  0x6574696c69636f, -- etilico
  0x65746e69636f, -- etnico
  0x6574727573636f, -- etrusco
  0x6574746f, -- etto
  0x6575636c6964656f, -- euclideo
  0x6575726f7061, -- europa
  0x657661736f, -- evaso
  0x65766964656e7a61, -- evidenza
  0x6576697461746f, -- evitato
  0x65766f6c75746f, -- evoluto
  0x657676697661, -- evviva
  0x6661626272696361, -- fabbrica
  0x66616363656e6461, -- faccenda
  0x6661636869726f, -- fachiro
  0x66616c636f, -- falco
  0x66616d69676c6961, -- famiglia
  0x66616e616c65, -- fanale
  0x66616e66617261, -- fanfara
  0x66616e676f, -- fango
  0x66616e7461736d61, -- fantasma
  0x66617265, -- fare
  0x66617266616c6c61, -- farfalla
  0x666172696e6f736f, -- farinoso
  0x6661726d61636f, -- farmaco
  0x666173636961, -- fascia
  0x666173746f736f, -- fastoso
  0x666173756c6c6f, -- fasullo
  0x6661746963617265, -- faticare
  0x6661746f, -- fato
  0x6661766f6c6f736f, -- favoloso
  0x666562627265, -- febbre
  0x6665636f6c61, -- fecola
  0x66656465, -- fede
  0x66656761746f, -- fegato
  0x66656c7061, -- felpa
  0x66656c74726f, -- feltro
  0x66656d6d696e61, -- femmina
  0x66656e64657265, -- fendere
  0x66656e6f6d656e6f, -- fenomeno
  0x6665726d656e746f, -- fermento
  0x666572726f, -- ferro
  0x66657274696c65, -- fertile
  0x66657373757261, -- fessura
  0x6665737469766f, -- festivo
  0x6665747461, -- fetta
  0x666575646f, -- feudo
  0x6669616261, -- fiaba
  0x66696475636961, -- fiducia
  0x66696661, -- fifa
  0x666967757261746f, -- figurato
  0x66696c6f, -- filo
  0x66696e616e7a61, -- finanza
  0x66696e6573747261, -- finestra
  0x66696e697265, -- finire
  0x66696f7265, -- fiore
  0x66697363616c65, -- fiscale
  0x66697369636f, -- fisico
  0x6669756d65, -- fiume
  0x666c61636f6e65, -- flacone
  0x666c616d656e636f, -- flamenco
  0x666c65626f, -- flebo
  0x666c656d6d61, -- flemma
  0x666c6f7269646f, -- florido
  0x666c75656e7465, -- fluente
  0x666c756f726f, -- fluoro
  0x666f6269636f, -- fobico
  0x666f636163636961, -- focaccia
  0x666f636f736f, -- focoso
  0x666f64657261746f, -- foderato
  0x666f676c696f, -- foglio
  0x666f6c617461, -- folata
  0x666f6c636c6f7265, -- folclore
  0x666f6c676f7265, -- folgore
  0x666f6e64656e7465, -- fondente
  0x666f6e657469636f, -- fonetico
  0x666f6e6961, -- fonia
  0x666f6e74616e61, -- fontana
  0x666f726269746f, -- forbito
  0x666f72636865747461, -- forchetta
  0x666f7265737461, -- foresta
  0x666f726d696361, -- formica
  0x666f726e61696f, -- fornaio
  0x666f726f, -- foro
  0x666f7274657a7a61, -- fortezza
  0x666f727a617265, -- forzare
  0x666f736661746f, -- fosfato
  0x666f73736f, -- fosso
  0x667261636173736f, -- fracasso
  0x6672616e61, -- frana
  0x6672617373696e6f, -- frassino
  0x66726174656c6c6f, -- fratello
  0x667265636365747461, -- freccetta
  0x6672656e617461, -- frenata
  0x66726573636f, -- fresco
  0x667269676f, -- frigo
  0x66726f6c6c696e6f, -- frollino
  0x66726f6e6465, -- fronde
  0x66727567616c65, -- frugale
  0x667275747461, -- frutta
  0x667563696c617461, -- fucilata
  0x667563736961, -- fucsia
  0x66756767656e7465, -- fuggente
  0x66756c6d696e65, -- fulmine
  0x66756c766f, -- fulvo
  0x66756d616e7465, -- fumante
  0x66756d6574746f, -- fumetto
  0x66756d6f736f, -- fumoso
  0x66756e65, -- fune
  0x66756e7a696f6e65, -- funzione
  0x66756f636f, -- fuoco
  0x667572626f, -- furbo
  0x667572676f6e65, -- furgone
  0x6675726f7265, -- furore
  0x6675736f, -- fuso
  0x667574696c65, -- futile
  0x6761626269616e6f, -- gabbiano
  0x6761666665, -- gaffe
  0x67616c6174656f, -- galateo
  0x67616c6c696e61, -- gallina
  0x67616c6f70706f, -- galoppo
  0x67616d6265726f, -- gambero
  0x67616d6d61, -- gamma
  0x676172616e7a6961, -- garanzia
  0x676172626f, -- garbo
  0x6761726f66616e6f, -- garofano
  0x6761727a6f6e65, -- garzone
  0x676173646f74746f, -- gasdotto
  0x6761736f6c696f, -- gasolio
  0x676173747269636f, -- gastrico
  0x676174746f, -- gatto
  0x67617564696f, -- gaudio
  0x67617a65626f, -- gazebo
  0x67617a7a656c6c61, -- gazzella
  0x6765636f, -- geco
  0x67656c6174696e61, -- gelatina
  0x67656c736f, -- gelso
  0x67656d656c6c6f, -- gemello
  0x67656d6d61746f, -- gemmato
  0x67656e65, -- gene
  0x67656e69746f7265, -- genitore
  0x67656e6e61696f, -- gennaio
  0x67656e6f7469706f, -- genotipo
  0x676572676f, -- gergo
  0x676865706172646f, -- ghepardo
  0x676869616363696f, -- ghiaccio
  0x6768697361, -- ghisa
  0x6769616c6c6f, -- giallo
  0x67696c6461, -- gilda
  0x67696e6570726f, -- ginepro
  0x67696f63617265, -- giocare
  0x67696f69656c6c6f, -- gioiello
  0x67696f726e6f, -- giorno
  0x67696f7665, -- giove
  0x67697261746f, -- girato
  0x6769726f6e65, -- girone
  0x67697474617461, -- gittata
  0x67697564697a696f, -- giudizio
  0x6769757261746f, -- giurato
  0x67697573746f, -- giusto
  0x676c6f62756c6f, -- globulo
  0x676c7574696e65, -- glutine
  0x676e6f6d6f, -- gnomo
  0x676f626261, -- gobba
  0x676f6c66, -- golf
  0x676f6d69746f, -- gomito
  0x676f6d6d6f6e65, -- gommone
  0x676f6e66696f, -- gonfio
  0x676f6e6e61, -- gonna
  0x676f7665726e6f, -- governo
  0x67726163696c65, -- gracile
  0x677261646f, -- grado
  0x6772616669636f, -- grafico
  0x6772616d6d6f, -- grammo
  0x6772616e6465, -- grande
  0x6772617474617265, -- grattare
  0x677261766f736f, -- gravoso
  0x6772617a6961, -- grazia
  0x6772656361, -- greca
  0x677265676765, -- gregge
  0x677269666f6e65, -- grifone
  0x67726967696f, -- grigio
  0x6772696e7a61, -- grinza
  0x67726f747461, -- grotta
  0x67727570706f, -- gruppo
  0x6775616461676e6f, -- guadagno
  0x677561696f, -- guaio
  0x6775616e746f, -- guanto
  0x6775617264617265, -- guardare
  0x6775666f, -- gufo
  0x67756964617265, -- guidare
  0x696265726e61746f, -- ibernato
  0x69636f6e61, -- icona
  0x6964656e7469636f, -- identico
  0x6964696c6c696f, -- idillio
  0x69646f6c6f, -- idolo
  0x69647261, -- idra
  0x69647269636f, -- idrico
  0x6964726f67656e6f, -- idrogeno
  0x696769656e65, -- igiene
  0x69676e61726f, -- ignaro
  0x69676e6f7261746f, -- ignorato
  0x696c617265, -- ilare
  0x696c6c65736f, -- illeso
  0x696c6c6f6769636f, -- illogico
  0x696c6c7564657265, -- illudere
  0x696d62616c6c6f, -- imballo
  0x696d62657675746f, -- imbevuto
  0x696d626f63636f, -- imbocco
  0x696d6275746f, -- imbuto
  0x696d6d616e65, -- immane
  0x696d6d6572736f, -- immerso
  0x696d6d6f6c61746f, -- immolato
  0x696d706163636f, -- impacco
  0x696d7065746f, -- impeto
  0x696d706965676f, -- impiego
  0x696d706f72746f, -- importo
  0x696d70726f6e7461, -- impronta
  0x696e616c617265, -- inalare
  0x696e617263617265, -- inarcare
  0x696e61747469766f, -- inattivo
  0x696e63616e746f, -- incanto
  0x696e63656e64696f, -- incendio
  0x696e6368696e6f, -- inchino
  0x696e63697369766f, -- incisivo
  0x696e636c75736f, -- incluso
  0x696e636f6e74726f, -- incontro
  0x696e63726f63696f, -- incrocio
  0x696e6375626f, -- incubo
  0x696e646167696e65, -- indagine
  0x696e646961, -- india
  0x696e646f6c65, -- indole
  0x696e656469746f, -- inedito
  0x696e6661747469, -- infatti
  0x696e66696c617265, -- infilare
  0x696e666c6974746f, -- inflitto
  0x696e67616767696f, -- ingaggio
  0x696e6765676e6f, -- ingegno
  0x696e676c657365, -- inglese
  0x696e676f72646f, -- ingordo
  0x696e67726f73736f, -- ingrosso
  0x696e6e6573636f, -- innesco
  0x696e6f646f7265, -- inodore
  0x696e6f6c7472617265, -- inoltrare
  0x696e6f6e6461746f, -- inondato
  0x696e73616e6f, -- insano
  0x696e736574746f, -- insetto
  0x696e7369656d65, -- insieme
  0x696e736f6e6e6961, -- insonnia
  0x696e73756c696e61, -- insulina
  0x696e74617361746f, -- intasato
  0x696e7465726f, -- intero
  0x696e746f6e61636f, -- intonaco
  0x696e747569746f, -- intuito
  0x696e756d6964697265, -- inumidire
  0x696e76616c69646f, -- invalido
  0x696e76656365, -- invece
  0x696e7669746f, -- invito
  0x69706572626f6c65, -- iperbole
  0x69706e6f7469636f, -- ipnotico
  0x69706f74657369, -- ipotesi
  0x697070696361, -- ippica
  0x6972696465, -- iride
  0x69726c616e6461, -- irlanda
  0x69726f6e69636f, -- ironico
  0x697272696761746f, -- irrigato
  0x6972726f72617265, -- irrorare
  0x69736f6c61746f, -- isolato
  0x69736f746f706f, -- isotopo
  0x697374657269636f, -- isterico
  0x697374697475746f, -- istituto
  0x69737472696365, -- istrice
  0x6974616c6961, -- italia
  0x69746572617265, -- iterare
  0x6c616262726f, -- labbro
  0x6c61626972696e746f, -- labirinto
  0x6c61636361, -- lacca
  0x6c6163657261746f, -- lacerato
  0x6c616372696d61, -- lacrima
  0x6c6163756e61, -- lacuna
  0x6c6164646f7665, -- laddove
  0x6c61676f, -- lago
  0x6c616d706f, -- lampo
  0x6c616e6365747461, -- lancetta
  0x6c616e7465726e61, -- lanterna
  0x6c6172646f736f, -- lardoso
  0x6c61726761, -- larga
  0x6c6172696e6765, -- laringe
  0x6c6173747261, -- lastra
  0x6c6174656e7a61, -- latenza
  0x6c6174696e6f, -- latino
  0x6c617474756761, -- lattuga
  0x6c617661676e61, -- lavagna
  0x6c61766f726f, -- lavoro
  0x6c6567616c65, -- legale
  0x6c65676765726f, -- leggero
  0x6c656d626f, -- lembo
  0x6c656e74657a7a61, -- lentezza
  0x6c656e7a61, -- lenza
  0x6c656f6e65, -- leone
  0x6c65707265, -- lepre
  0x6c657369766f, -- lesivo
  0x6c65737361746f, -- lessato
  0x6c6573746f, -- lesto
  0x6c6574746572616c65, -- letterale
  0x6c657661, -- leva
  0x6c6576696761746f, -- levigato
  0x6c696265726f, -- libero
  0x6c69646f, -- lido
  0x6c69657669746f, -- lievito
  0x6c696c6c61, -- lilla
  0x6c696d6174757261, -- limatura
  0x6c696d6974617265, -- limitare
  0x6c696d7069646f, -- limpido
  0x6c696e65617265, -- lineare
  0x6c696e677561, -- lingua
  0x6c69717569646f, -- liquido
  0x6c697261, -- lira
  0x6c6972696361, -- lirica
  0x6c69736361, -- lisca
  0x6c697465, -- lite
  0x6c69746967696f, -- litigio
  0x6c6976726561, -- livrea
  0x6c6f63616e6461, -- locanda
  0x6c6f6465, -- lode
  0x6c6f67696361, -- logica
  0x6c6f6d62617265, -- lombare
  0x6c6f6e647261, -- londra
  0x6c6f6e6765766f, -- longevo
  0x6c6f7175616365, -- loquace
  0x6c6f72656e7a6f, -- lorenzo
  0x6c6f746f, -- loto
  0x6c6f747465726961, -- lotteria
  0x6c756365, -- luce
  0x6c7563696461746f, -- lucidato
  0x6c756d616361, -- lumaca
  0x6c756d696e6f736f, -- luminoso
  0x6c756e676f, -- lungo
  0x6c75706f, -- lupo
  0x6c7570706f6c6f, -- luppolo
  0x6c7573696e6761, -- lusinga
  0x6c7573736f, -- lusso
  0x6c7574746f, -- lutto
  0x6d61636162726f, -- macabro
  0x6d61636368696e61, -- macchina
  0x6d616365726f, -- macero
  0x6d6163696e61746f, -- macinato
  0x6d6164616d61, -- madama
  0x6d616769636f, -- magico
  0x6d61676c6961, -- maglia
  0x6d61676e657465, -- magnete
  0x6d6167726f, -- magro
  0x6d61696f6c696361, -- maiolica
  0x6d616c6166656465, -- malafede
  0x6d616c677261646f, -- malgrado
  0x6d616c696e7465736f, -- malinteso
  0x6d616c73616e6f, -- malsano
  0x6d616c746f, -- malto
  0x6d616c756d6f7265, -- malumore
  0x6d616e61, -- mana
  0x6d616e636961, -- mancia
  0x6d616e646f726c61, -- mandorla
  0x6d616e6769617265, -- mangiare
  0x6d616e69666573746f, -- manifesto
  0x6d616e6e61726f, -- mannaro
  0x6d616e6f767261, -- manovra
  0x6d616e7361726461, -- mansarda
  0x6d616e74696465, -- mantide
  0x6d616e756272696f, -- manubrio
  0x6d61707061, -- mappa
  0x6d617261746f6e61, -- maratona
  0x6d617263697265, -- marcire
  0x6d617265747461, -- maretta
  0x6d61726d6f, -- marmo
  0x6d6172737570696f, -- marsupio
  0x6d61736368657261, -- maschera
  0x6d617373616961, -- massaia
  0x6d617374696e6f, -- mastino
  0x6d617465726173736f, -- materasso
  0x6d61747269636f6c61, -- matricola
  0x6d6174746f6e65, -- mattone
  0x6d617475726f, -- maturo
  0x6d617a75726361, -- mazurca
  0x6d65616e64726f, -- meandro
  0x6d656363616e69636f, -- meccanico
  0x6d6563656e617465, -- mecenate
  0x6d65646573696d6f, -- medesimo
  0x6d65646974617265, -- meditare
  0x6d656761, -- mega
  0x6d656c61737361, -- melassa
  0x6d656c6973, -- melis
  0x6d656c6f646961, -- melodia
  0x6d656e696e6765, -- meninge
  0x6d656e6f, -- meno
  0x6d656e736f6c61, -- mensola
  0x6d6572637572696f, -- mercurio
  0x6d6572656e6461, -- merenda
  0x6d65726c6f, -- merlo
  0x6d65736368696e6f, -- meschino
  0x6d657365, -- mese
  0x6d657373657265, -- messere
  0x6d6573746f6c6f, -- mestolo
  0x6d6574616c6c6f, -- metallo
  0x6d65746f646f, -- metodo
  0x6d657474657265, -- mettere
  0x6d6961676f6c617265, -- miagolare
  0x6d696361, -- mica
  0x6d6963656c696f, -- micelio
  0x6d696368656c65, -- michele
  0x6d6963726f626f, -- microbo
  0x6d69646f6c6c6f, -- midollo
  0x6d69656c65, -- miele
  0x6d69676c696f7265, -- migliore
  0x6d696c616e6f, -- milano
  0x6d696c697465, -- milite
  0x6d696d6f7361, -- mimosa
  0x6d696e6572616c65, -- minerale
  0x6d696e69, -- mini
  0x6d696e6f7265, -- minore
  0x6d6972696e6f, -- mirino
  0x6d697274696c6c6f, -- mirtillo
  0x6d697363656c61, -- miscela
  0x6d697373697661, -- missiva
  0x6d6973746f, -- misto
  0x6d69737572617265, -- misurare
  0x6d6974657a7a61, -- mitezza
  0x6d69746967617265, -- mitigare
  0x6d69747261, -- mitra
  0x6d697474656e7465, -- mittente
  0x6d6e656d6f6e69636f, -- mnemonico
  0x6d6f64656c6c6f, -- modello
  0x6d6f646966696361, -- modifica
  0x6d6f64756c6f, -- modulo
  0x6d6f67616e6f, -- mogano
  0x6d6f67696f, -- mogio
  0x6d6f6c65, -- mole
  0x6d6f6c6f73736f, -- molosso
  0x6d6f6e61737465726f, -- monastero
  0x6d6f6e636f, -- monco
  0x6d6f6e64696e61, -- mondina
  0x6d6f6e65746172696f, -- monetario
  0x6d6f6e696c65, -- monile
  0x6d6f6e6f746f6e6f, -- monotono
  0x6d6f6e736f6e65, -- monsone
  0x6d6f6e7461746f, -- montato
  0x6d6f6e7669736f, -- monviso
  0x6d6f7261, -- mora
  0x6d6f7264657265, -- mordere
  0x6d6f7273696361746f, -- morsicato
  0x6d6f7374726f, -- mostro
  0x6d6f74697661746f, -- motivato
  0x6d6f746f73656761, -- motosega
  0x6d6f74746f, -- motto
  0x6d6f76656e7a61, -- movenza
  0x6d6f76696d656e746f, -- movimento
  0x6d6f7a7a6f, -- mozzo
  0x6d75636361, -- mucca
  0x6d75636f7361, -- mucosa
  0x6d75666661, -- muffa
  0x6d7567686574746f, -- mughetto
  0x6d75676e61696f, -- mugnaio
  0x6d756c6174746f, -- mulatto
  0x6d756c696e656c6c6f, -- mulinello
  0x6d756c7469706c6f, -- multiplo
  0x6d756d6d6961, -- mummia
  0x6d756e746f, -- munto
  0x6d756f76657265, -- muovere
  0x6d7572616c65, -- murale
  0x6d757361, -- musa
  0x6d7573636f6c6f, -- muscolo
  0x6d7573696361, -- musica
  0x6d757465766f6c65, -- mutevole
  0x6d75746f, -- muto
  0x6e61626162626f, -- nababbo
  0x6e61667461, -- nafta
  0x6e616e6f6d6574726f, -- nanometro
  0x6e61726369736f, -- narciso
  0x6e6172696365, -- narice
  0x6e61727261746f, -- narrato
  0x6e617363657265, -- nascere
  0x6e61737472617265, -- nastrare
  0x6e61747572616c65, -- naturale
  0x6e617574696361, -- nautica
  0x6e617669676c696f, -- naviglio
  0x6e6562756c6f7361, -- nebulosa
  0x6e6563726f7369, -- necrosi
  0x6e6567617469766f, -- negativo
  0x6e65676f7a696f, -- negozio
  0x6e656d6d656e6f, -- nemmeno
  0x6e656f66697461, -- neofita
  0x6e65726574746f, -- neretto
  0x6e6572766f, -- nervo
  0x6e657373756e6f, -- nessuno
  0x6e657474756e6f, -- nettuno
  0x6e65757472616c65, -- neutrale
  0x6e657665, -- neve
  0x6e6576726f7469636f, -- nevrotico
  0x6e696363686961, -- nicchia
  0x6e696e6661, -- ninfa
  0x6e697469646f, -- nitido
  0x6e6f62696c65, -- nobile
  0x6e6f6369766f, -- nocivo
  0x6e6f646f, -- nodo
  0x6e6f6d65, -- nome
  0x6e6f6d696e61, -- nomina
  0x6e6f726469636f, -- nordico
  0x6e6f726d616c65, -- normale
  0x6e6f72766567657365, -- norvegese
  0x6e6f737472616e6f, -- nostrano
  0x6e6f74617265, -- notare
  0x6e6f74697a6961, -- notizia
  0x6e6f747475726e6f, -- notturno
  0x6e6f76656c6c61, -- novella
  0x6e75636c656f, -- nucleo
  0x6e756c6c61, -- nulla
  0x6e756d65726f, -- numero
  0x6e756f766f, -- nuovo
  0x6e757472697265, -- nutrire
  0x6e75766f6c61, -- nuvola
  0x6e757a69616c65, -- nuziale
  0x6f617369, -- oasi
  0x6f62626564697265, -- obbedire
  0x6f62626c69676f, -- obbligo
  0x6f62656c6973636f, -- obelisco
  0x6f626c696f, -- oblio
  0x6f626f6c6f, -- obolo
  0x6f62736f6c65746f, -- obsoleto
  0x6f63636173696f6e65, -- occasione
  0x6f636368696f, -- occhio
  0x6f63636964656e7465, -- occidente
  0x6f63636f7272657265, -- occorrere
  0x6f6363756c74617265, -- occultare
  0x6f637261, -- ocra
  0x6f63756c61746f, -- oculato
  0x6f646965726e6f, -- odierno
  0x6f646f72617265, -- odorare
  0x6f666665727461, -- offerta
  0x6f666672697265, -- offrire
  0x6f666675736361746f, -- offuscato
  0x6f67676574746f, -- oggetto
  0x6f676769, -- oggi
  0x6f676e756e6f, -- ognuno
  0x6f6c616e64657365, -- olandese
  0x6f6c666174746f, -- olfatto
  0x6f6c6961746f, -- oliato
  0x6f6c697661, -- oliva
  0x6f6c6f6772616d6d61, -- ologramma
  0x6f6c747265, -- oltre
  0x6f6d616767696f, -- omaggio
  0x6f6d62656c69636f, -- ombelico
  0x6f6d627261, -- ombra
  0x6f6d656761, -- omega
  0x6f6d697373696f6e65, -- omissione
  0x6f6e646f736f, -- ondoso
  0x6f6e657265, -- onere
  0x6f6e696365, -- onice
  0x6f6e6e69766f726f, -- onnivoro
  0x6f6e6f7265766f6c65, -- onorevole
  0x6f6e7461, -- onta
  0x6f70657261746f, -- operato
  0x6f70696e696f6e65, -- opinione
  0x6f70706f73746f, -- opposto
  0x6f7261636f6c6f, -- oracolo
  0x6f7261666f, -- orafo
  0x6f7264696e65, -- ordine
  0x6f7265636368696e6f, -- orecchino
  0x6f726566696365, -- orefice
  0x6f7266616e6f, -- orfano
  0x6f7267616e69636f, -- organico
  0x6f726967696e65, -- origine
  0x6f72697a7a6f6e7465, -- orizzonte
  0x6f726d61, -- orma
  0x6f726d656767696f, -- ormeggio
  0x6f726e617469766f, -- ornativo
  0x6f726f6c6f67696f, -- orologio
  0x6f7272656e646f, -- orrendo
  0x6f72726962696c65, -- orribile
  0x6f7274656e736961, -- ortensia
  0x6f7274696361, -- ortica
  0x6f727a617461, -- orzata
  0x6f727a6f, -- orzo
  0x6f73617265, -- osare
  0x6f73637572617265, -- oscurare
  0x6f736d6f7369, -- osmosi
  0x6f73706564616c65, -- ospedale
  0x6f7370697465, -- ospite
  0x6f737361, -- ossa
  0x6f73736964617265, -- ossidare
  0x6f737461636f6c6f, -- ostacolo
  0x6f737465, -- oste
  0x6f74697465, -- otite
  0x6f747265, -- otre
  0x6f747461676f6e6f, -- ottagono
  0x6f7474696d6f, -- ottimo
  0x6f74746f627265, -- ottobre
  0x6f76616c65, -- ovale
  0x6f76657374, -- ovest
  0x6f76696e6f, -- ovino
  0x6f76697061726f, -- oviparo
  0x6f766f6369746f, -- ovocito
  0x6f76756e717565, -- ovunque
  0x6f767669617265, -- ovviare
  0x6f7a696f, -- ozio
  0x70616363686574746f, -- pacchetto
  0x70616365, -- pace
  0x706163696669636f, -- pacifico
  0x706164656c6c61, -- padella
  0x706164726f6e65, -- padrone
  0x7061657365, -- paese
  0x70616761, -- paga
  0x706167696e61, -- pagina
  0x70616c617a7a696e61, -- palazzina
  0x70616c6573617265, -- palesare
  0x70616c6c69646f, -- pallido
  0x70616c6f, -- palo
  0x70616c756465, -- palude
  0x70616e646f726f, -- pandoro
  0x70616e6e656c6c6f, -- pannello
  0x70616f6c6f, -- paolo
  0x70616f6e617a7a6f, -- paonazzo
  0x70617072696361, -- paprica
  0x70617261626f6c61, -- parabola
  0x70617263656c6c61, -- parcella
  0x706172657265, -- parere
  0x706172676f6c6f, -- pargolo
  0x70617269, -- pari
  0x7061726c61746f, -- parlato
  0x7061726f6c61, -- parola
  0x70617274697265, -- partire
  0x70617276656e7a61, -- parvenza
  0x7061727a69616c65, -- parziale
  0x7061737369766f, -- passivo
  0x7061737469636361, -- pasticca
  0x70617461636361, -- patacca
  0x7061746f6c6f676961, -- patologia
  0x70617474756d65, -- pattume
  0x7061766f6e65, -- pavone
  0x7065636361746f, -- peccato
  0x706564616c617265, -- pedalare
  0x7065646f6e616c65, -- pedonale
  0x70656767696f, -- peggio
  0x70656c6f736f, -- peloso
  0x70656e617265, -- penare
  0x70656e64696365, -- pendice
  0x70656e69736f6c61, -- penisola
  0x70656e6e75746f, -- pennuto
  0x70656e6f6d627261, -- penombra
  0x70656e73617265, -- pensare
  0x70656e746f6c61, -- pentola
  0x70657065, -- pepe
  0x706570697461, -- pepita
  0x70657262656e65, -- perbene
  0x706572636f72736f, -- percorso
  0x706572646f6e61746f, -- perdonato
  0x706572666f72617265, -- perforare
  0x70657267616d656e61, -- pergamena
  0x706572696f646f, -- periodo
  0x7065726d6573736f, -- permesso
  0x7065726e6f, -- perno
  0x706572706c6573736f, -- perplesso
  0x706572737561736f, -- persuaso
  0x706572747567696f, -- pertugio
  0x7065727661736f, -- pervaso
  0x70657361746f7265, -- pesatore
  0x70657369737461, -- pesista
  0x7065736f, -- peso
  0x70657374696665726f, -- pestifero
  0x706574616c6f, -- petalo
  0x70657474696e65, -- pettine
  0x706574756c616e7465, -- petulante
  0x70657a7a6f, -- pezzo
  0x70696163657265, -- piacere
  0x7069616e7461, -- pianta
  0x7069617474696e6f, -- piattino
  0x70696363696e6f, -- piccino
  0x7069636f7a7a61, -- picozza
  0x7069656761, -- piega
  0x706965747261, -- pietra
  0x7069666665726f, -- piffero
  0x70696769616d61, -- pigiama
  0x7069676f6c696f, -- pigolio
  0x706967726f, -- pigro
  0x70696c61, -- pila
  0x70696c696665726f, -- pilifero
  0x70696c6c6f6c61, -- pillola
  0x70696c6f7461, -- pilota
  0x70696d70616e7465, -- pimpante
  0x70696e657461, -- pineta
  0x70696e6e61, -- pinna
  0x70696e6f6c6f, -- pinolo
  0x70696f67676961, -- pioggia
  0x70696f6d626f, -- piombo
  0x706972616d696465, -- piramide
  0x706972657469636f, -- piretico
  0x706972697465, -- pirite
  0x7069726f6c697369, -- pirolisi
  0x7069746f6e65, -- pitone
  0x70697a7a69636f, -- pizzico
  0x706c616365626f, -- placebo
  0x706c616e617265, -- planare
  0x706c61736d61, -- plasma
  0x706c6174616e6f, -- platano
  0x706c656e6172696f, -- plenario
  0x706f6368657a7a61, -- pochezza
  0x706f6465726f736f, -- poderoso
  0x706f6469736d6f, -- podismo
  0x706f65736961, -- poesia
  0x706f676769617265, -- poggiare
  0x706f6c656e7461, -- polenta
  0x706f6c69676f6e6f, -- poligono
  0x706f6c6c696365, -- pollice
  0x706f6c6d6f6e697465, -- polmonite
  0x706f6c7065747461, -- polpetta
  0x706f6c736f, -- polso
  0x706f6c74726f6e61, -- poltrona
  0x706f6c76657265, -- polvere
  0x706f6d696365, -- pomice
  0x706f6d6f646f726f, -- pomodoro
  0x706f6e7465, -- ponte
  0x706f706f6c6f736f, -- popoloso
  0x706f726669646f, -- porfido
  0x706f726f736f, -- poroso
  0x706f72706f7261, -- porpora
  0x706f727265, -- porre
  0x706f7274617461, -- portata
  0x706f7361, -- posa
  0x706f73697469766f, -- positivo
  0x706f73736573736f, -- possesso
  0x706f7374756c61746f, -- postulato
  0x706f74617373696f, -- potassio
  0x706f74657265, -- potere
  0x7072616e7a6f, -- pranzo
  0x707261737369, -- prassi
  0x70726174696361, -- pratica
  0x707265636c75736f, -- precluso
  0x70726564696361, -- predica
  0x707265666973736f, -- prefisso
  0x707265676961746f, -- pregiato
  0x7072656c6965766f, -- prelievo
  0x7072656d657265, -- premere
  0x7072656e6f74617265, -- prenotare
  0x70726570617261746f, -- preparato
  0x70726573656e7a61, -- presenza
  0x707265746573746f, -- pretesto
  0x70726576616c736f, -- prevalso
  0x7072696d61, -- prima
  0x7072696e63697065, -- principe
  0x7072697661746f, -- privato
  0x70726f626c656d61, -- problema
  0x70726f63757261, -- procura
  0x70726f6475727265, -- produrre
  0x70726f66756d6f, -- profumo
  0x70726f676574746f, -- progetto
  0x70726f6c756e6761, -- prolunga
  0x70726f6d65737361, -- promessa
  0x70726f6e6f6d65, -- pronome
  0x70726f706f737461, -- proposta
  0x70726f726f6761, -- proroga
  0x70726f7465736f, -- proteso
  0x70726f7661, -- prova
  0x70727564656e7465, -- prudente
  0x707275676e61, -- prugna
  0x7072757269746f, -- prurito
  0x707369636865, -- psiche
  0x707562626c69636f, -- pubblico
  0x707564696361, -- pudica
  0x707567696c61746f, -- pugilato
  0x7075676e6f, -- pugno
  0x70756c6365, -- pulce
  0x70756c69746f, -- pulito
  0x70756c73616e7465, -- pulsante
  0x70756e74617265, -- puntare
  0x707570617a7a6f, -- pupazzo
  0x707570696c6c61, -- pupilla
  0x7075726f, -- puro
  0x71756164726f, -- quadro
  0x7175616c636f7361, -- qualcosa
  0x7175617369, -- quasi
  0x71756572656c61, -- querela
  0x71756f7461, -- quota
  0x726163636f6c746f, -- raccolto
  0x726164646f7070696f, -- raddoppio
  0x7261646963616c65, -- radicale
  0x726164756e61746f, -- radunato
  0x72616666696361, -- raffica
  0x726167617a7a6f, -- ragazzo
  0x726167696f6e65, -- ragione
  0x7261676e6f, -- ragno
  0x72616d6172726f, -- ramarro
  0x72616d696e676f, -- ramingo
  0x72616d6f, -- ramo
  0x72616e646167696f, -- randagio
  0x72616e746f6c617265, -- rantolare
  0x72617061746f, -- rapato
  0x726170696e61, -- rapina
  0x726170707265736f, -- rappreso
  0x7261736174757261, -- rasatura
  0x72617363686961746f, -- raschiato
  0x726173656e7465, -- rasente
  0x7261737365676e61, -- rassegna
  0x7261737472656c6c6f, -- rastrello
  0x72617461, -- rata
  0x72617676656475746f, -- ravveduto
  0x7265616c65, -- reale
  0x7265636570697265, -- recepire
  0x726563696e746f, -- recinto
  0x7265636c757461, -- recluta
  0x7265636f6e6469746f, -- recondito
  0x726563757065726f, -- recupero
  0x7265646469746f, -- reddito
  0x726564696d657265, -- redimere
  0x726567616c61746f, -- regalato
  0x726567697374726f, -- registro
  0x7265676f6c61, -- regola
  0x726567726573736f, -- regresso
  0x72656c617a696f6e65, -- relazione
  0x72656d617265, -- remare
  0x72656d6f746f, -- remoto
  0x72656e6e61, -- renna
  0x7265706c696361, -- replica
  0x72657072696d657265, -- reprimere
  0x7265707574617265, -- reputare
  0x72657361, -- resa
  0x7265736964656e7465, -- residente
  0x726573706f6e736f, -- responso
  0x726573746175726f, -- restauro
  0x72657465, -- rete
  0x726574696e61, -- retina
  0x7265746f72696361, -- retorica
  0x726574746966696361, -- rettifica
  0x7265766f6361746f, -- revocato
  0x7269617373756e746f, -- riassunto
  0x7269626164697265, -- ribadire
  0x726962656c6c65, -- ribelle
  0x72696272657a7a6f, -- ribrezzo
  0x7269636172696361, -- ricarica
  0x726963636f, -- ricco
  0x7269636576657265, -- ricevere
  0x72696369636c61746f, -- riciclato
  0x7269636f72646f, -- ricordo
  0x72696372656475746f, -- ricreduto
  0x72696469636f6c6f, -- ridicolo
  0x72696475727265, -- ridurre
  0x7269666173617265, -- rifasare
  0x7269666c6573736f, -- riflesso
  0x7269666f726d61, -- riforma
  0x7269667567696f, -- rifugio
  0x726967617265, -- rigare
  0x72696765747461746f, -- rigettato
  0x72696768656c6c6f, -- righello
  0x72696c61737361746f, -- rilassato
  0x72696c657661746f, -- rilevato
  0x72696d616e657265, -- rimanere
  0x72696d62616c7a6f, -- rimbalzo
  0x72696d6564696f, -- rimedio
  0x72696d6f726368696f, -- rimorchio
  0x72696e617363697461, -- rinascita
  0x72696e6361726f, -- rincaro
  0x72696e666f727a6f, -- rinforzo
  0x72696e6e6f766f, -- rinnovo
  0x72696e6f6d61746f, -- rinomato
  0x72696e73617669746f, -- rinsavito
  0x72696e746f63636f, -- rintocco
  0x72696e756e636961, -- rinuncia
  0x72696e76656e697265, -- rinvenire
  0x726970617261746f, -- riparato
  0x726970657475746f, -- ripetuto
  0x72697069656e6f, -- ripieno
  0x7269706f7274617265, -- riportare
  0x72697072657361, -- ripresa
  0x726970756c697265, -- ripulire
  0x726973617461, -- risata
  0x7269736368696f, -- rischio
  0x72697365727661, -- riserva
  0x7269736962696c65, -- risibile
  0x7269736f, -- riso
  0x726973706574746f, -- rispetto
  0x726973746f726f, -- ristoro
  0x726973756c7461746f, -- risultato
  0x726973766f6c746f, -- risvolto
  0x7269746172646f, -- ritardo
  0x72697465676e6f, -- ritegno
  0x7269746d69636f, -- ritmico
  0x726974726f766f, -- ritrovo
  0x7269756e696f6e65, -- riunione
  0x72697661, -- riva
  0x7269766572736f, -- riverso
  0x726976696e63697461, -- rivincita
  0x7269766f6c746f, -- rivolto
  0x72697a6f6d61, -- rizoma
  0x726f6261, -- roba
  0x726f626f7469636f, -- robotico
  0x726f627573746f, -- robusto
  0x726f63636961, -- roccia
  0x726f636f, -- roco
  0x726f64616767696f, -- rodaggio
  0x726f64657265, -- rodere
  0x726f6469746f7265, -- roditore
  0x726f6769746f, -- rogito
  0x726f6c6c696f, -- rollio
  0x726f6d616e7469636f, -- romantico
  0x726f6d70657265, -- rompere
  0x726f6e7a696f, -- ronzio
  0x726f736f6c617265, -- rosolare
  0x726f73706f, -- rospo
  0x726f74616e7465, -- rotante
  0x726f746f6e646f, -- rotondo
  0x726f74756c61, -- rotula
  0x726f76657363696f, -- rovescio
  0x727562697a7a6f, -- rubizzo
  0x72756272696361, -- rubrica
  0x72756761, -- ruga
  0x72756c6c696e6f, -- rullino
  0x72756d696e65, -- rumine
  0x72756d6f726f736f, -- rumoroso
  0x72756f6c6f, -- ruolo
  0x72757065, -- rupe
  0x72757373617265, -- russare
  0x7275737469636f, -- rustico
  0x73616261746f, -- sabato
  0x7361626269617265, -- sabbiare
  0x7361626f7461746f, -- sabotato
  0x7361676f6d61, -- sagoma
  0x73616c6173736f, -- salasso
  0x73616c646174757261, -- saldatura
  0x73616c67656d6d61, -- salgemma
  0x73616c6976617265, -- salivare
  0x73616c6d6f6e65, -- salmone
  0x73616c6f6e65, -- salone
  0x73616c74617265, -- saltare
  0x73616c75746f, -- saluto
  0x73616c766f, -- salvo
  0x736170657265, -- sapere
  0x73617069646f, -- sapido
  0x7361706f7269746f, -- saporito
  0x7361726163656e6f, -- saraceno
  0x7361726361736d6f, -- sarcasmo
  0x736172746f, -- sarto
  0x736173736f736f, -- sassoso
  0x736174656c6c697465, -- satellite
  0x736174697261, -- satira
  0x7361746f6c6c6f, -- satollo
  0x73617475726e6f, -- saturno
  0x736176616e61, -- savana
  0x736176696f, -- savio
  0x73617a6961746f, -- saziato
  0x7362616469676c696f, -- sbadiglio
  0x7362616c7a6f, -- sbalzo
  0x7362616e6361746f, -- sbancato
  0x736261727261, -- sbarra
  0x7362617474657265, -- sbattere
  0x73626176617265, -- sbavare
  0x7362656e64617265, -- sbendare
  0x736269726369617265, -- sbirciare
  0x73626c6f636361746f, -- sbloccato
  0x73626f63636961746f, -- sbocciato
  0x736272696e617265, -- sbrinare
  0x7362727566666f6e65, -- sbruffone
  0x7362756666617265, -- sbuffare
  0x73636162726f736f, -- scabroso
  0x73636164656e7a61, -- scadenza
  0x7363616c61, -- scala
  0x7363616d6269617265, -- scambiare
  0x7363616e64616c6f, -- scandalo
  0x736361706f6c61, -- scapola
  0x73636172736f, -- scarso
  0x73636174656e617265, -- scatenare
  0x7363617661746f, -- scavato
  0x7363656c746f, -- scelto
  0x7363656e69636f, -- scenico
  0x7363657474726f, -- scettro
  0x736368656461, -- scheda
  0x73636869656e61, -- schiena
  0x73636961727061, -- sciarpa
  0x736369656e7a61, -- scienza
  0x7363696e64657265, -- scindere
  0x73636970706f, -- scippo
  0x736369726f70706f, -- sciroppo
  0x736369766f6c6f, -- scivolo
  0x73636c6572617265, -- sclerare
  0x73636f64656c6c61, -- scodella
  0x73636f6c7069746f, -- scolpito
  0x73636f6d706172746f, -- scomparto
  0x73636f6e666f72746f, -- sconforto
  0x73636f7072697265, -- scoprire
  0x73636f727461, -- scorta
  0x73636f73736f6e65, -- scossone
  0x73636f7a7a657365, -- scozzese
  0x736372696261, -- scriba
  0x7363726f6c6c617265, -- scrollare
  0x7363727574696e696f, -- scrutinio
  0x7363756465726961, -- scuderia
  0x7363756c746f7265, -- scultore
  0x7363756f6c61, -- scuola
  0x736375726f, -- scuro
  0x73637573617265, -- scusare
  0x736465626974617265, -- sdebitare
  0x73646f67616e617265, -- sdoganare
  0x736563636174757261, -- seccatura
  0x7365636f6e646f, -- secondo
  0x736564616e6f, -- sedano
  0x73656767696f6c61, -- seggiola
  0x7365676e616c61746f, -- segnalato
  0x73656772656761746f, -- segregato
  0x7365677569746f, -- seguito
  0x73656c636961746f, -- selciato
  0x73656c65747469766f, -- selettivo
  0x73656c6c61, -- sella
  0x73656c76616767696f, -- selvaggio
  0x73656d61666f726f, -- semaforo
  0x73656d6272617265, -- sembrare
  0x73656d65, -- seme
  0x73656d696e61746f, -- seminato
  0x73656d707265, -- sempre
  0x73656e736f, -- senso
  0x73656e74697265, -- sentire
  0x7365706f6c746f, -- sepolto
  0x73657175656e7a61, -- sequenza
  0x736572617461, -- serata
  0x7365726261746f, -- serbato
  0x736572656e6f, -- sereno
  0x736572696f, -- serio
  0x73657270656e7465, -- serpente
  0x7365727261676c696f, -- serraglio
  0x73657276697265, -- servire
  0x73657374696e61, -- sestina
  0x7365746f6c61, -- setola
  0x73657474696d616e61, -- settimana
  0x73666163656c6f, -- sfacelo
  0x7366616c64617265, -- sfaldare
  0x7366616d61746f, -- sfamato
  0x736661727a6f736f, -- sfarzoso
  0x73666174696361746f, -- sfaticato
  0x7366657261, -- sfera
  0x7366696461, -- sfida
  0x7366696c61746f, -- sfilato
  0x7366696e6765, -- sfinge
  0x73666f6361746f, -- sfocato
  0x73666f646572617265, -- sfoderare
  0x73666f676f, -- sfogo
  0x73666f6c74697265, -- sfoltire
  0x73666f727a61746f, -- sforzato
  0x7366726174746f, -- sfratto
  0x73667275747461746f, -- sfruttato
  0x736675676769746f, -- sfuggito
  0x7366756d617265, -- sfumare
  0x736675736f, -- sfuso
  0x73676162656c6c6f, -- sgabello
  0x736761726261746f, -- sgarbato
  0x73676f6e6669617265, -- sgonfiare
  0x73676f7262696f, -- sgorbio
  0x73677261737361746f, -- sgrassato
  0x7367756172646f, -- sguardo
  0x736962696c6f, -- sibilo
  0x736963636f6d65, -- siccome
  0x736965727261, -- sierra
  0x7369676c61, -- sigla
  0x7369676e6f7265, -- signore
  0x73696c656e7a696f, -- silenzio
  0x73696c6c616261, -- sillaba
  0x73696d626f6c6f, -- simbolo
  0x73696d70617469636f, -- simpatico
  0x73696d756c61746f, -- simulato
  0x73696e666f6e6961, -- sinfonia
  0x73696e676f6c6f, -- singolo
  0x73696e697374726f, -- sinistro
  0x73696e6f, -- sino
  0x73696e74657369, -- sintesi
  0x73696e75736f696465, -- sinusoide
  0x7369706172696f, -- sipario
  0x7369736d61, -- sisma
  0x736973746f6c65, -- sistole
  0x7369747561746f, -- situato
  0x736c69747461, -- slitta
  0x736c6f676174757261, -- slogatura
  0x736c6f76656e6f, -- sloveno
  0x736d61727269746f, -- smarrito
  0x736d656d6f7261746f, -- smemorato
  0x736d656e7469746f, -- smentito
  0x736d6572616c646f, -- smeraldo
  0x736d696c7a6f, -- smilzo
  0x736d6f6e74617265, -- smontare
  0x736d6f747461746f, -- smottato
  0x736d75737361746f, -- smussato
  0x736e656c6c697265, -- snellire
  0x736e65727661746f, -- snervato
  0x736e6f646f, -- snodo
  0x736f6262616c7a6f, -- sobbalzo
  0x736f6272696f, -- sobrio
  0x736f63636f72736f, -- soccorso
  0x736f6369616c65, -- sociale
  0x736f64616c65, -- sodale
  0x736f66666974746f, -- soffitto
  0x736f676e6f, -- sogno
  0x736f6c6461746f, -- soldato
  0x736f6c656e6e65, -- solenne
  0x736f6c69646f, -- solido
  0x736f6c6c617a7a6f, -- sollazzo
  0x736f6c6f, -- solo
  0x736f6c7562696c65, -- solubile
  0x736f6c76656e7465, -- solvente
  0x736f6d617469636f, -- somatico
  0x736f6d6d61, -- somma
  0x736f6e6461, -- sonda
  0x736f6e6574746f, -- sonetto
  0x736f6e6e696665726f, -- sonnifero
  0x736f70697265, -- sopire
  0x736f707065736f, -- soppeso
  0x736f707261, -- sopra
  0x736f7267657265, -- sorgere
  0x736f72706173736f, -- sorpasso
  0x736f727269736f, -- sorriso
  0x736f72736f, -- sorso
  0x736f7274656767696f, -- sorteggio
  0x736f72766f6c61746f, -- sorvolato
  0x736f737069726f, -- sospiro
  0x736f737461, -- sosta
  0x736f7474696c65, -- sottile
  0x7370616461, -- spada
  0x7370616c6c61, -- spalla
  0x7370617267657265, -- spargere
  0x737061746f6c61, -- spatola
  0x73706176656e746f, -- spavento
  0x7370617a7a6f6c61, -- spazzola
  0x737065636965, -- specie
  0x73706564697265, -- spedire
  0x737065676e657265, -- spegnere
  0x7370656c6174757261, -- spelatura
  0x73706572616e7a61, -- speranza
  0x73706573736f7265, -- spessore
  0x737065747472616c65, -- spettrale
  0x7370657a7a61746f, -- spezzato
  0x73706961, -- spia
  0x737069676f6c6f736f, -- spigoloso
  0x7370696c6c61746f, -- spillato
  0x7370696e6f736f, -- spinoso
  0x73706972616c65, -- spirale
  0x73706c656e6469646f, -- splendido
  0x73706f727469766f, -- sportivo
  0x73706f736f, -- sposo
  0x737072616e6761, -- spranga
  0x7370726563617265, -- sprecare
  0x7370726f6e61746f, -- spronato
  0x737072757a7a6f, -- spruzzo
  0x7370756e74696e6f, -- spuntino
  0x737175696c6c6f, -- squillo
  0x737261646963617265, -- sradicare
  0x73726f746f6c61746f, -- srotolato
  0x73746162696c65, -- stabile
  0x73746163636f, -- stacco
  0x737461666661, -- staffa
  0x737461676e617265, -- stagnare
  0x7374616d7061746f, -- stampato
  0x7374616e74696f, -- stantio
  0x737461726e75746f, -- starnuto
  0x73746173657261, -- stasera
  0x7374617475746f, -- statuto
  0x7374656c6f, -- stelo
  0x737465707061, -- steppa
  0x737465727a6f, -- sterzo
  0x7374696c6574746f, -- stiletto
  0x7374696d61, -- stima
  0x737469727065, -- stirpe
  0x73746976616c65, -- stivale
  0x7374697a7a6f736f, -- stizzoso
  0x73746f6e61746f, -- stonato
  0x73746f7269636f, -- storico
  0x7374726170706f, -- strappo
  0x737472656761746f, -- stregato
  0x7374726964756c6f, -- stridulo
  0x7374726f7a7a617265, -- strozzare
  0x7374727574746f, -- strutto
  0x7374756363617265, -- stuccare
  0x737475666f, -- stufo
  0x73747570656e646f, -- stupendo
  0x737562656e74726f, -- subentro
  0x737563636f736f, -- succoso
  0x7375646f7265, -- sudore
  0x73756767657269746f, -- suggerito
  0x7375676f, -- sugo
  0x73756c74616e6f, -- sultano
  0x73756f6e617265, -- suonare
  0x7375706572626f, -- superbo
  0x737570706f72746f, -- supporto
  0x73757267656c61746f, -- surgelato
  0x737572726f6761746f, -- surrogato
  0x737573737572726f, -- sussurro
  0x737574757261, -- sutura
  0x73766167617265, -- svagare
  0x73766564657365, -- svedese
  0x737665676c696f, -- sveglio
  0x7376656c617265, -- svelare
  0x7376656e75746f, -- svenuto
  0x7376657a6961, -- svezia
  0x7376696c7570706f, -- sviluppo
  0x737669737461, -- svista
  0x7376697a7a657261, -- svizzera
  0x73766f6c7461, -- svolta
  0x7376756f74617265, -- svuotare
  0x7461626163636f, -- tabacco
  0x746162756c61746f, -- tabulato
  0x7461636369617265, -- tacciare
  0x746163697475726e6f, -- taciturno
  0x74616c65, -- tale
  0x74616c69736d616e6f, -- talismano
  0x74616d706f6e65, -- tampone
  0x74616e6e696e6f, -- tannino
  0x74617261, -- tara
  0x7461726469766f, -- tardivo
  0x7461726761746f, -- targato
  0x74617269666661, -- tariffa
  0x74617270617265, -- tarpare
  0x746172746172756761, -- tartaruga
  0x746173746f, -- tasto
  0x7461747469636f, -- tattico
  0x74617665726e61, -- taverna
  0x7461766f6c617461, -- tavolata
  0x74617a7a61, -- tazza
  0x74656361, -- teca
  0x7465636e69636f, -- tecnico
  0x74656c65666f6e6f, -- telefono
  0x74656d65726172696f, -- temerario
  0x74656d706f, -- tempo
  0x74656d75746f, -- temuto
  0x74656e646f6e65, -- tendone
  0x74656e65726f, -- tenero
  0x74656e73696f6e65, -- tensione
  0x74656e7461636f6c6f, -- tentacolo
  0x74656f72656d61, -- teorema
  0x7465726d65, -- terme
  0x74657272617a7a6f, -- terrazzo
  0x7465727a6574746f, -- terzetto
  0x74657369, -- tesi
  0x74657373657261746f, -- tesserato
  0x7465737461746f, -- testato
  0x746574726f, -- tetro
  0x746574746f6961, -- tettoia
  0x746966617265, -- tifare
  0x746967656c6c61, -- tigella
  0x74696d62726f, -- timbro
  0x74696e746f, -- tinto
  0x74697069636f, -- tipico
  0x7469706f677261666f, -- tipografo
  0x746972616767696f, -- tiraggio
  0x7469726f, -- tiro
  0x746974616e696f, -- titanio
  0x7469746f6c6f, -- titolo
  0x7469747562616e7465, -- titubante
  0x74697a696f, -- tizio
  0x74697a7a6f6e65, -- tizzone
  0x746f6363617265, -- toccare
  0x746f6c6c6572617265, -- tollerare
  0x746f6c746f, -- tolto
  0x746f6d626f6c61, -- tombola
  0x746f6d6f, -- tomo
  0x746f6e666f, -- tonfo
  0x746f6e73696c6c61, -- tonsilla
  0x746f70617a696f, -- topazio
  0x746f706f6c6f676961, -- topologia
  0x746f707061, -- toppa
  0x746f726261, -- torba
  0x746f726e617265, -- tornare
  0x746f72726f6e65, -- torrone
  0x746f72746f7261, -- tortora
  0x746f7363616e6f, -- toscano
  0x746f7373697265, -- tossire
  0x746f73746174757261, -- tostatura
  0x746f74616e6f, -- totano
  0x747261626f63636f, -- trabocco
  0x74726163686561, -- trachea
  0x74726166696c61, -- trafila
  0x7472616765646961, -- tragedia
  0x7472616c63696f, -- tralcio
  0x7472616d6f6e746f, -- tramonto
  0x7472616e7369746f, -- transito
  0x74726170616e6f, -- trapano
  0x747261727265, -- trarre
  0x747261736c6f636f, -- trasloco
  0x747261747461746f, -- trattato
  0x7472617665, -- trave
  0x74726563636961, -- treccia
  0x7472656d6f6c696f, -- tremolio
  0x74726573706f6c6f, -- trespolo
  0x7472696275746f, -- tributo
  0x747269636865636f, -- tricheco
  0x747269666f676c696f, -- trifoglio
  0x7472696c6c6f, -- trillo
  0x7472696e636561, -- trincea
  0x7472696f, -- trio
  0x7472697374657a7a61, -- tristezza
  0x74726974757261746f, -- triturato
  0x74726976656c6c61, -- trivella
  0x74726f6d6261, -- tromba
  0x74726f6e6f, -- trono
  0x74726f70706f, -- troppo
  0x74726f74746f6c61, -- trottola
  0x74726f76617265, -- trovare
  0x747275636361746f, -- truccato
  0x7475626174757261, -- tubatura
  0x7475666661746f, -- tuffato
  0x74756c6970616e6f, -- tulipano
  0x74756d756c746f, -- tumulto
  0x74756e69736961, -- tunisia
  0x74757262617265, -- turbare
  0x7475726368696e6f, -- turchino
  0x74757461, -- tuta
  0x747574656c61, -- tutela
  0x7562696361746f, -- ubicato
  0x756363656c6c6f, -- uccello
  0x75636369736f7265, -- uccisore
  0x7564697265, -- udire
  0x7564697469766f, -- uditivo
  0x75666661, -- uffa
  0x7566666963696f, -- ufficio
  0x756775616c65, -- uguale
  0x756c69737365, -- ulisse
  0x756c74696d61746f, -- ultimato
  0x756d616e6f, -- umano
  0x756d696c65, -- umile
  0x756d6f7269736d6f, -- umorismo
  0x756e63696e6574746f, -- uncinetto
  0x756e67657265, -- ungere
  0x756e67686572657365, -- ungherese
  0x756e69636f726e6f, -- unicorno
  0x756e6966696361746f, -- unificato
  0x756e69736f6e6f, -- unisono
  0x756e69746172696f, -- unitario
  0x756e7465, -- unte
  0x756f766f, -- uovo
  0x7570757061, -- upupa
  0x75726167616e6f, -- uragano
  0x757267656e7a61, -- urgenza
  0x75726c6f, -- urlo
  0x7573616e7a61, -- usanza
  0x757361746f, -- usato
  0x75736369746f, -- uscito
  0x757369676e6f6c6f, -- usignolo
  0x7573757261696f, -- usuraio
  0x7574656e73696c65, -- utensile
  0x7574696c697a7a6f, -- utilizzo
  0x75746f706961, -- utopia
  0x766163616e7465, -- vacante
  0x76616363696e61746f, -- vaccinato
  0x76616761626f6e646f, -- vagabondo
  0x7661676c6961746f, -- vagliato
  0x76616c616e6761, -- valanga
  0x76616c676f, -- valgo
  0x76616c69636f, -- valico
  0x76616c6c65747461, -- valletta
  0x76616c6f726f736f, -- valoroso
  0x76616c7574617265, -- valutare
  0x76616c766f6c61, -- valvola
  0x76616d70617461, -- vampata
  0x76616e67617265, -- vangare
  0x76616e69746f736f, -- vanitoso
  0x76616e6f, -- vano
  0x76616e74616767696f, -- vantaggio
  0x76616e76657261, -- vanvera
  0x7661706f7265, -- vapore
  0x766172616e6f, -- varano
  0x7661726361746f, -- varcato
  0x76617269616e7465, -- variante
  0x7661736361, -- vasca
  0x76656465747461, -- vedetta
  0x7665646f7661, -- vedova
  0x76656475746f, -- veduto
  0x7665676574616c65, -- vegetale
  0x766569636f6c6f, -- veicolo
  0x76656c63726f, -- velcro
  0x76656c696e61, -- velina
  0x76656c6c75746f, -- velluto
  0x76656c6f6365, -- veloce
  0x76656e61746f, -- venato
  0x76656e64656d6d6961, -- vendemmia
  0x76656e746f, -- vento
  0x766572616365, -- verace
  0x76657262616c65, -- verbale
  0x766572676f676e61, -- vergogna
  0x7665726966696361, -- verifica
  0x7665726f, -- vero
  0x76657272756361, -- verruca
  0x766572746963616c65, -- verticale
  0x76657363696361, -- vescica
  0x76657373696c6c6f, -- vessillo
  0x76657374616c65, -- vestale
  0x7665746572616e6f, -- veterano
  0x76657472696e61, -- vetrina
  0x7665747573746f, -- vetusto
  0x7669616e64616e7465, -- viandante
  0x76696272616e7465, -- vibrante
  0x766963656e6461, -- vicenda
  0x76696368696e676f, -- vichingo
  0x766963696e616e7a61, -- vicinanza
  0x766964696d617265, -- vidimare
  0x766967696c6961, -- vigilia
  0x7669676e65746f, -- vigneto
  0x7669676f7265, -- vigore
  0x76696c65, -- vile
  0x76696c6c616e6f, -- villano
  0x76696d696e69, -- vimini
  0x76696e6369746f7265, -- vincitore
  0x76696f6c61, -- viola
  0x766970657261, -- vipera
  0x766972676f6c61, -- virgola
  0x7669726f6c6f676f, -- virologo
  0x766972756c656e746f, -- virulento
  0x766973636f736f, -- viscoso
  0x766973696f6e65, -- visione
  0x766973706f, -- vispo
  0x7669737375746f, -- vissuto
  0x766973757261, -- visura
  0x76697461, -- vita
  0x766974656c6c6f, -- vitello
  0x76697474696d61, -- vittima
  0x766976616e6461, -- vivanda
  0x76697669646f, -- vivido
  0x76697a69617265, -- viziare
  0x766f6365, -- voce
  0x766f6761, -- voga
  0x766f6c6174696c65, -- volatile
  0x766f6c657265, -- volere
  0x766f6c7065, -- volpe
  0x766f726167696e65, -- voragine
  0x76756c63616e6f, -- vulcano
  0x7a616d706f676e61, -- zampogna
  0x7a616e6e61, -- zanna
  0x7a61707061746f, -- zappato
  0x7a617474657261, -- zattera
  0x7a61766f727261, -- zavorra
  0x7a656669726f, -- zefiro
  0x7a656c616e7465, -- zelante
  0x7a656c6f, -- zelo
  0x7a656e7a65726f, -- zenzero
  0x7a657262696e6f, -- zerbino
  0x7a69626574746f, -- zibetto
  0x7a696e636f, -- zinco
  0x7a6972636f6e65, -- zircone
  0x7a6974746f, -- zitto
  0x7a6f6c6c61, -- zolla
  0x7a6f7469636f, -- zotico
  0x7a7563636865726f, -- zucchero
  0x7a75666f6c6f, -- zufolo
  0x7a756c75, -- zulu
  0x7a75707061] -- zuppa

/-- wordlists.go:6158-8207 `ItalianWordlist`. -/
def ItalianWordlist : List GoString := unpackWords ItalianWordlistPacked

end Btc
