import Verif.Words.Basic

/-! Generated from /repo/wordlists.go, lines 2056-4105: each word is its UTF-8 bytes read as one
big-endian number (`0x61626c65` is "able"); the word is in the comment. -/

namespace Btc

set_option maxRecDepth 20000 in
/-- wordlists.go:2056-4105 `FrenchWordlist`, in order, packed. -/
def FrenchWordlistPacked : List Nat := [
  0x6162616973736572, -- abaisser
  0x6162616e646f6e, -- abandon
  0x6162646971756572, -- abdiquer
  0x616265696c6c65, -- abeille
  0x61626f6c6972, -- abolir
  0x61626f72646572, -- aborder
  0x61626f75746972, -- aboutir
  0x61626f796572, -- aboyer
  0x61627261736966, -- abrasif
  0x6162726575766572, -- abreuver
  0x61627269746572, -- abriter
  0x6162726f676572, -- abroger
  0x616272757074, -- abrupt
  0x616273656e6365, -- absence
  0x6162736f6c75, -- absolu
  0x61627375726465, -- absurde
  0x616275736966, -- abusif
  0x6162797373616c, -- abyssal
  0x6163616465cc816d6965, -- académie
  0x6163616a6f75, -- acajou
  0x6163617269656e, -- acarien
  0x61636361626c6572, -- accabler
  0x6163636570746572, -- accepter
  0x6163636c616d6572, -- acclamer
  0x6163636f6c616465, -- accolade
  0x616363726f636865, -- accroche
  0x61636375736572, -- accuser
  0x616365726265, -- acerbe
  0x6163686174, -- achat
  0x61636865746572, -- acheter
  0x61636964756c6572, -- aciduler
  0x6163696572, -- acier
  0x61636f6d707465, -- acompte
  0x6163717565cc81726972, -- acquérir
  0x6163726f6e796d65, -- acronyme
  0x616374657572, -- acteur
  0x6163746966, -- actif
  0x61637475656c, -- actuel
  0x616465707465, -- adepte
  0x616465cc8171756174, -- adéquat
  0x61646865cc81736966, -- adhésif
  0x61646a6563746966, -- adjectif
  0x61646a75676572, -- adjuger
  0x61646d6574747265, -- admettre
  0x61646d69726572, -- admirer
  0x61646f70746572, -- adopter
  0x61646f726572, -- adorer
  0x61646f75636972, -- adoucir
  0x61647265737365, -- adresse
  0x6164726f6974, -- adroit
  0x6164756c7465, -- adulte
  0x61647665726265, -- adverbe
  0x6165cc81726572, -- aérer
  0x6165cc81726f6e6566, -- aéronef
  0x61666661697265, -- affaire
  0x6166666563746572, -- affecter
  0x61666669636865, -- affiche
  0x61666672657578, -- affreux
  0x61666675626c6572, -- affubler
  0x616761636572, -- agacer
  0x6167656e636572, -- agencer
  0x6167696c65, -- agile
  0x616769746572, -- agiter
  0x61677261666572, -- agrafer
  0x61677265cc8161626c65, -- agréable
  0x616772756d65, -- agrume
  0x6169646572, -- aider
  0x61696775696c6c65, -- aiguille
  0x61696c696572, -- ailier
  0x61696d61626c65, -- aimable
  0x616973616e6365, -- aisance
  0x616a6f75746572, -- ajouter
  0x616a7573746572, -- ajuster
  0x616c61726d6572, -- alarmer
  0x616c6368696d6965, -- alchimie
  0x616c65727465, -- alerte
  0x616c6765cc80627265, -- algèbre
  0x616c677565, -- algue
  0x616c6965cc816e6572, -- aliéner
  0x616c696d656e74, -- aliment
  0x616c6c65cc81676572, -- alléger
  0x616c6c69616765, -- alliage
  0x616c6c6f756572, -- allouer
  0x616c6c756d6572, -- allumer
  0x616c6f7572646972, -- alourdir
  0x616c70616761, -- alpaga
  0x616c7465737365, -- altesse
  0x616c7665cc816f6c65, -- alvéole
  0x616d6174657572, -- amateur
  0x616d62696775, -- ambigu
  0x616d627265, -- ambre
  0x616d65cc816e61676572, -- aménager
  0x616d657274756d65, -- amertume
  0x616d69646f6e, -- amidon
  0x616d6972616c, -- amiral
  0x616d6f72636572, -- amorcer
  0x616d6f7572, -- amour
  0x616d6f7669626c65, -- amovible
  0x616d706869626965, -- amphibie
  0x616d706c657572, -- ampleur
  0x616d7573616e74, -- amusant
  0x616e616c797365, -- analyse
  0x616e6170686f7265, -- anaphore
  0x616e617263686965, -- anarchie
  0x616e61746f6d6965, -- anatomie
  0x616e6369656e, -- ancien
  0x616e65cc81616e746972, -- anéantir
  0x616e676c65, -- angle
  0x616e676f69737365, -- angoisse
  0x616e67756c657578, -- anguleux
  0x616e696d616c, -- animal
  0x616e6e65786572, -- annexer
  0x616e6e6f6e6365, -- annonce
  0x616e6e75656c, -- annuel
  0x616e6f64696e, -- anodin
  0x616e6f6d616c6965, -- anomalie
  0x616e6f6e796d65, -- anonyme
  0x616e6f726d616c, -- anormal
  0x616e74656e6e65, -- antenne
  0x616e7469646f7465, -- antidote
  0x616e7869657578, -- anxieux
  0x61706169736572, -- apaiser
  0x617065cc817269746966, -- apéritif
  0x61706c616e6972, -- aplanir
  0x61706f6c6f676965, -- apologie
  0x617070617265696c, -- appareil
  0x617070656c6572, -- appeler
  0x6170706f72746572, -- apporter
  0x61707075796572, -- appuyer
  0x617175617269756d, -- aquarium
  0x61717565647563, -- aqueduc
  0x61726269747265, -- arbitre
  0x61726275737465, -- arbuste
  0x617264657572, -- ardeur
  0x6172646f697365, -- ardoise
  0x617267656e74, -- argent
  0x61726c657175696e, -- arlequin
  0x61726d6174757265, -- armature
  0x61726d656d656e74, -- armement
  0x61726d6f697265, -- armoire
  0x61726d757265, -- armure
  0x617270656e746572, -- arpenter
  0x6172726163686572, -- arracher
  0x61727269766572, -- arriver
  0x6172726f736572, -- arroser
  0x617273656e6963, -- arsenic
  0x61727465cc817269656c, -- artériel
  0x61727469636c65, -- article
  0x617370656374, -- aspect
  0x61737068616c7465, -- asphalte
  0x61737069726572, -- aspirer
  0x617373617574, -- assaut
  0x6173736572766972, -- asservir
  0x6173736965747465, -- assiette
  0x6173736f63696572, -- associer
  0x61737375726572, -- assurer
  0x61737469636f74, -- asticot
  0x6173747265, -- astre
  0x617374756365, -- astuce
  0x6174656c696572, -- atelier
  0x61746f6d65, -- atome
  0x61747269756d, -- atrium
  0x6174726f6365, -- atroce
  0x61747461717565, -- attaque
  0x617474656e746966, -- attentif
  0x61747469726572, -- attirer
  0x6174747261706572, -- attraper
  0x61756261696e65, -- aubaine
  0x61756265726765, -- auberge
  0x617564616365, -- audace
  0x61756469626c65, -- audible
  0x61756775726572, -- augurer
  0x6175726f7265, -- aurore
  0x6175746f6d6e65, -- automne
  0x6175747275636865, -- autruche
  0x6176616c6572, -- avaler
  0x6176616e636572, -- avancer
  0x61766172696365, -- avarice
  0x6176656e6972, -- avenir
  0x617665727365, -- averse
  0x61766575676c65, -- aveugle
  0x6176696174657572, -- aviateur
  0x6176696465, -- avide
  0x6176696f6e, -- avion
  0x617669736572, -- aviser
  0x61766f696e65, -- avoine
  0x61766f756572, -- avouer
  0x617672696c, -- avril
  0x617869616c, -- axial
  0x6178696f6d65, -- axiome
  0x6261646765, -- badge
  0x6261666f756572, -- bafouer
  0x626167616765, -- bagage
  0x6261677565747465, -- baguette
  0x626169676e616465, -- baignade
  0x62616c616e636572, -- balancer
  0x62616c636f6e, -- balcon
  0x62616c65696e65, -- baleine
  0x62616c6973616765, -- balisage
  0x62616d62696e, -- bambin
  0x62616e6361697265, -- bancaire
  0x62616e64616765, -- bandage
  0x62616e6c69657565, -- banlieue
  0x62616e6e6965cc807265, -- bannière
  0x62616e7175696572, -- banquier
  0x62617262696572, -- barbier
  0x626172696c, -- baril
  0x6261726f6e, -- baron
  0x626172717565, -- barque
  0x62617272616765, -- barrage
  0x62617373696e, -- bassin
  0x62617374696f6e, -- bastion
  0x62617461696c6c65, -- bataille
  0x626174656175, -- bateau
  0x6261747465726965, -- batterie
  0x6261756472696572, -- baudrier
  0x6261766172646572, -- bavarder
  0x62656c65747465, -- belette
  0x6265cc816c696572, -- bélier
  0x62656c6f7465, -- belote
  0x6265cc816e65cc8166696365, -- bénéfice
  0x62657263656175, -- berceau
  0x626572676572, -- berger
  0x6265726c696e65, -- berline
  0x6265726d756461, -- bermuda
  0x626573616365, -- besace
  0x6265736f676e65, -- besogne
  0x6265cc817461696c, -- bétail
  0x626575727265, -- beurre
  0x62696265726f6e, -- biberon
  0x62696379636c65, -- bicycle
  0x626964756c65, -- bidule
  0x62696a6f75, -- bijou
  0x62696c616e, -- bilan
  0x62696c696e677565, -- bilingue
  0x62696c6c617264, -- billard
  0x62696e61697265, -- binaire
  0x62696f6c6f676965, -- biologie
  0x62696f70736965, -- biopsie
  0x62696f74797065, -- biotype
  0x62697363756974, -- biscuit
  0x6269736f6e, -- bison
  0x626973746f757269, -- bistouri
  0x626974756d65, -- bitume
  0x62697a61727265, -- bizarre
  0x626c6166617264, -- blafard
  0x626c61677565, -- blague
  0x626c616e63686972, -- blanchir
  0x626c657373616e74, -- blessant
  0x626c696e646572, -- blinder
  0x626c6f6e64, -- blond
  0x626c6f71756572, -- bloquer
  0x626c6f75736f6e, -- blouson
  0x626f62617264, -- bobard
  0x626f62696e65, -- bobine
  0x626f697265, -- boire
  0x626f69736572, -- boiser
  0x626f6c696465, -- bolide
  0x626f6e626f6e, -- bonbon
  0x626f6e646972, -- bondir
  0x626f6e68657572, -- bonheur
  0x626f6e6966696572, -- bonifier
  0x626f6e7573, -- bonus
  0x626f7264757265, -- bordure
  0x626f726e65, -- borne
  0x626f747465, -- botte
  0x626f75636c65, -- boucle
  0x626f75657578, -- boueux
  0x626f75676965, -- bougie
  0x626f756c6f6e, -- boulon
  0x626f757175696e, -- bouquin
  0x626f75727365, -- bourse
  0x626f7573736f6c65, -- boussole
  0x626f757469717565, -- boutique
  0x626f78657572, -- boxeur
  0x6272616e636865, -- branche
  0x62726173696572, -- brasier
  0x6272617665, -- brave
  0x627265626973, -- brebis
  0x627265cc80636865, -- brèche
  0x6272657576616765, -- breuvage
  0x627269636f6c6572, -- bricoler
  0x62726967616465, -- brigade
  0x6272696c6c616e74, -- brillant
  0x6272696f636865, -- brioche
  0x627269717565, -- brique
  0x62726f6368757265, -- brochure
  0x62726f646572, -- broder
  0x62726f6e7a6572, -- bronzer
  0x62726f75737365, -- brousse
  0x62726f79657572, -- broyeur
  0x6272756d65, -- brume
  0x62727573717565, -- brusque
  0x62727574616c, -- brutal
  0x62727579616e74, -- bruyant
  0x627566666c65, -- buffle
  0x62756973736f6e, -- buisson
  0x62756c6c6574696e, -- bulletin
  0x627572656175, -- bureau
  0x627572696e, -- burin
  0x62757374696572, -- bustier
  0x627574696e6572, -- butiner
  0x6275746f6972, -- butoir
  0x62757661626c65, -- buvable
  0x62757665747465, -- buvette
  0x636162616e6f6e, -- cabanon
  0x636162696e65, -- cabine
  0x6361636865747465, -- cachette
  0x636164656175, -- cadeau
  0x6361647265, -- cadre
  0x63616665cc81696e65, -- caféine
  0x6361696c6c6f75, -- caillou
  0x63616973736f6e, -- caisson
  0x63616c63756c6572, -- calculer
  0x63616c6570696e, -- calepin
  0x63616c69627265, -- calibre
  0x63616c6d6572, -- calmer
  0x63616c6f6d6e6965, -- calomnie
  0x63616c7661697265, -- calvaire
  0x63616d6172616465, -- camarade
  0x63616d65cc817261, -- caméra
  0x63616d696f6e, -- camion
  0x63616d7061676e65, -- campagne
  0x63616e616c, -- canal
  0x63616e65746f6e, -- caneton
  0x63616e6f6e, -- canon
  0x63616e74696e65, -- cantine
  0x63616e756c6172, -- canular
  0x63617061626c65, -- capable
  0x6361706f72616c, -- caporal
  0x63617072696365, -- caprice
  0x63617073756c65, -- capsule
  0x636170746572, -- capter
  0x63617075636865, -- capuche
  0x6361726162696e65, -- carabine
  0x636172626f6e65, -- carbone
  0x6361726573736572, -- caresser
  0x63617269626f75, -- caribou
  0x6361726e616765, -- carnage
  0x6361726f747465, -- carotte
  0x63617272656175, -- carreau
  0x636172746f6e, -- carton
  0x63617363616465, -- cascade
  0x636173696572, -- casier
  0x636173717565, -- casque
  0x63617373757265, -- cassure
  0x636175736572, -- causer
  0x63617574696f6e, -- caution
  0x636176616c696572, -- cavalier
  0x63617665726e65, -- caverne
  0x636176696172, -- caviar
  0x6365cc8164696c6c65, -- cédille
  0x6365696e74757265, -- ceinture
  0x6365cc816c65737465, -- céleste
  0x63656c6c756c65, -- cellule
  0x63656e6472696572, -- cendrier
  0x63656e7375726572, -- censurer
  0x63656e7472616c, -- central
  0x636572636c65, -- cercle
  0x6365cc817265cc816272616c, -- cérébral
  0x636572697365, -- cerise
  0x6365726e6572, -- cerner
  0x63657276656175, -- cerveau
  0x636573736572, -- cesser
  0x6368616772696e, -- chagrin
  0x636861697365, -- chaise
  0x6368616c657572, -- chaleur
  0x6368616d627265, -- chambre
  0x6368616e6365, -- chance
  0x6368617069747265, -- chapitre
  0x63686172626f6e, -- charbon
  0x6368617373657572, -- chasseur
  0x636861746f6e, -- chaton
  0x6368617573736f6e, -- chausson
  0x6368617669726572, -- chavirer
  0x6368656d697365, -- chemise
  0x6368656e696c6c65, -- chenille
  0x636865cc817175696572, -- chéquier
  0x6368657263686572, -- chercher
  0x63686576616c, -- cheval
  0x636869656e, -- chien
  0x63686966667265, -- chiffre
  0x636869676e6f6e, -- chignon
  0x6368696d65cc807265, -- chimère
  0x6368696f74, -- chiot
  0x63686c6f72757265, -- chlorure
  0x63686f636f6c6174, -- chocolat
  0x63686f69736972, -- choisir
  0x63686f7365, -- chose
  0x63686f7565747465, -- chouette
  0x6368726f6d65, -- chrome
  0x6368757465, -- chute
  0x636967617265, -- cigare
  0x6369676f676e65, -- cigogne
  0x63696d656e746572, -- cimenter
  0x63696e65cc816d61, -- cinéma
  0x63696e74726572, -- cintrer
  0x63697263756c6572, -- circuler
  0x6369726572, -- cirer
  0x636972717565, -- cirque
  0x63697465726e65, -- citerne
  0x6369746f79656e, -- citoyen
  0x636974726f6e, -- citron
  0x636976696c, -- civil
  0x636c6169726f6e, -- clairon
  0x636c616d657572, -- clameur
  0x636c6171756572, -- claquer
  0x636c61737365, -- classe
  0x636c6176696572, -- clavier
  0x636c69656e74, -- client
  0x636c69676e6572, -- cligner
  0x636c696d6174, -- climat
  0x636c6976616765, -- clivage
  0x636c6f636865, -- cloche
  0x636c6f6e616765, -- clonage
  0x636c6f706f727465, -- cloporte
  0x636f62616c74, -- cobalt
  0x636f627261, -- cobra
  0x636f6361737365, -- cocasse
  0x636f636f74696572, -- cocotier
  0x636f646572, -- coder
  0x636f646966696572, -- codifier
  0x636f66667265, -- coffre
  0x636f676e6572, -- cogner
  0x636f6865cc8173696f6e, -- cohésion
  0x636f6966666572, -- coiffer
  0x636f696e636572, -- coincer
  0x636f6c65cc807265, -- colère
  0x636f6c69627269, -- colibri
  0x636f6c6c696e65, -- colline
  0x636f6c6d61746572, -- colmater
  0x636f6c6f6e656c, -- colonel
  0x636f6d626174, -- combat
  0x636f6d65cc81646965, -- comédie
  0x636f6d6d616e6465, -- commande
  0x636f6d70616374, -- compact
  0x636f6e63657274, -- concert
  0x636f6e6475697265, -- conduire
  0x636f6e66696572, -- confier
  0x636f6e67656c6572, -- congeler
  0x636f6e6e6f746572, -- connoter
  0x636f6e736f6e6e65, -- consonne
  0x636f6e74616374, -- contact
  0x636f6e76657865, -- convexe
  0x636f7061696e, -- copain
  0x636f706965, -- copie
  0x636f7261696c, -- corail
  0x636f7262656175, -- corbeau
  0x636f7264616765, -- cordage
  0x636f726e69636865, -- corniche
  0x636f72707573, -- corpus
  0x636f7272656374, -- correct
  0x636f727465cc806765, -- cortège
  0x636f736d69717565, -- cosmique
  0x636f7374756d65, -- costume
  0x636f746f6e, -- coton
  0x636f756465, -- coude
  0x636f7570757265, -- coupure
  0x636f7572616765, -- courage
  0x636f7574656175, -- couteau
  0x636f7576726972, -- couvrir
  0x636f796f7465, -- coyote
  0x6372616265, -- crabe
  0x637261696e7465, -- crainte
  0x63726176617465, -- cravate
  0x637261796f6e, -- crayon
  0x637265cc816174757265, -- créature
  0x637265cc816469746572, -- créditer
  0x637265cc816d657578, -- crémeux
  0x63726575736572, -- creuser
  0x6372657665747465, -- crevette
  0x637269626c6572, -- cribler
  0x6372696572, -- crier
  0x6372697374616c, -- cristal
  0x6372697465cc807265, -- critère
  0x63726f697265, -- croire
  0x63726f71756572, -- croquer
  0x63726f74616c65, -- crotale
  0x6372756369616c, -- crucial
  0x637275656c, -- cruel
  0x63727970746572, -- crypter
  0x63756269717565, -- cubique
  0x637565696c6c6972, -- cueillir
  0x6375696c6c65cc807265, -- cuillère
  0x63756973696e65, -- cuisine
  0x637569767265, -- cuivre
  0x63756c6d696e6572, -- culminer
  0x63756c7469766572, -- cultiver
  0x63756d756c6572, -- cumuler
  0x637570696465, -- cupide
  0x63757261746966, -- curatif
  0x63757273657572, -- curseur
  0x6379616e757265, -- cyanure
  0x6379636c65, -- cycle
  0x63796c696e647265, -- cylindre
  0x63796e69717565, -- cynique
  0x646169676e6572, -- daigner
  0x64616d696572, -- damier
  0x64616e676572, -- danger
  0x64616e73657572, -- danseur
  0x6461757068696e, -- dauphin
  0x6465cc81626174747265, -- débattre
  0x6465cc816269746572, -- débiter
  0x6465cc81626f72646572, -- déborder
  0x6465cc81627269646572, -- débrider
  0x6465cc81627574616e74, -- débutant
  0x6465cc8163616c6572, -- décaler
  0x6465cc8163656d627265, -- décembre
  0x6465cc81636869726572, -- déchirer
  0x6465cc816369646572, -- décider
  0x6465cc81636c61726572, -- déclarer
  0x6465cc81636f726572, -- décorer
  0x6465cc816372697265, -- décrire
  0x6465cc816375706c6572, -- décupler
  0x6465cc8164616c65, -- dédale
  0x6465cc81647563746966, -- déductif
  0x6465cc8165737365, -- déesse
  0x6465cc8166656e736966, -- défensif
  0x6465cc8166696c6572, -- défiler
  0x6465cc81667261796572, -- défrayer
  0x6465cc816761676572, -- dégager
  0x6465cc81676976726572, -- dégivrer
  0x6465cc81676c75746972, -- déglutir
  0x6465cc81677261666572, -- dégrafer
  0x6465cc816a65756e6572, -- déjeuner
  0x6465cc816c696365, -- délice
  0x6465cc816c6f676572, -- déloger
  0x64656d616e646572, -- demander
  0x64656d6575726572, -- demeurer
  0x6465cc816d6f6c6972, -- démolir
  0x6465cc816e6963686572, -- dénicher
  0x6465cc816e6f756572, -- dénouer
  0x64656e74656c6c65, -- dentelle
  0x6465cc816e75646572, -- dénuder
  0x6465cc8170617274, -- départ
  0x6465cc8170656e736572, -- dépenser
  0x6465cc81706861736572, -- déphaser
  0x6465cc81706c61636572, -- déplacer
  0x6465cc81706f736572, -- déposer
  0x6465cc8172616e676572, -- déranger
  0x6465cc81726f626572, -- dérober
  0x6465cc81736173747265, -- désastre
  0x64657363656e7465, -- descente
  0x6465cc8173657274, -- désert
  0x6465cc817369676e6572, -- désigner
  0x6465cc81736f6265cc816972, -- désobéir
  0x64657373696e6572, -- dessiner
  0x6465737472696572, -- destrier
  0x6465cc81746163686572, -- détacher
  0x6465cc81746573746572, -- détester
  0x6465cc81746f75726572, -- détourer
  0x6465cc81747265737365, -- détresse
  0x646576616e636572, -- devancer
  0x646576656e6972, -- devenir
  0x646576696e6572, -- deviner
  0x6465766f6972, -- devoir
  0x646961626c65, -- diable
  0x6469616c6f677565, -- dialogue
  0x6469616d616e74, -- diamant
  0x646963746572, -- dicter
  0x6469666665cc81726572, -- différer
  0x64696765cc81726572, -- digérer
  0x6469676974616c, -- digital
  0x6469676e65, -- digne
  0x64696c756572, -- diluer
  0x64696d616e636865, -- dimanche
  0x64696d696e756572, -- diminuer
  0x64696f78796465, -- dioxyde
  0x6469726563746966, -- directif
  0x64697269676572, -- diriger
  0x6469736375746572, -- discuter
  0x646973706f736572, -- disposer
  0x6469737369706572, -- dissiper
  0x64697374616e6365, -- distance
  0x6469766572746972, -- divertir
  0x64697669736572, -- diviser
  0x646f63696c65, -- docile
  0x646f6374657572, -- docteur
  0x646f676d65, -- dogme
  0x646f696774, -- doigt
  0x646f6d61696e65, -- domaine
  0x646f6d6963696c65, -- domicile
  0x646f6d70746572, -- dompter
  0x646f6e6174657572, -- donateur
  0x646f6e6a6f6e, -- donjon
  0x646f6e6e6572, -- donner
  0x646f70616d696e65, -- dopamine
  0x646f72746f6972, -- dortoir
  0x646f72757265, -- dorure
  0x646f73616765, -- dosage
  0x646f73657572, -- doseur
  0x646f7373696572, -- dossier
  0x646f746174696f6e, -- dotation
  0x646f75616e696572, -- douanier
  0x646f75626c65, -- double
  0x646f7563657572, -- douceur
  0x646f75746572, -- douter
  0x646f79656e, -- doyen
  0x647261676f6e, -- dragon
  0x647261706572, -- draper
  0x64726573736572, -- dresser
  0x64726962626c6572, -- dribbler
  0x64726f6974757265, -- droiture
  0x64757065726965, -- duperie
  0x6475706c657865, -- duplexe
  0x64757261626c65, -- durable
  0x647572636972, -- durcir
  0x64796e6173746965, -- dynastie
  0x65cc81626c6f756972, -- éblouir
  0x65cc81636172746572, -- écarter
  0x65cc81636861727065, -- écharpe
  0x65cc816368656c6c65, -- échelle
  0x65cc81636c6169726572, -- éclairer
  0x65cc81636c69707365, -- éclipse
  0x65cc81636c6f7265, -- éclore
  0x65cc81636c757365, -- écluse
  0x65cc81636f6c65, -- école
  0x65cc81636f6e6f6d6965, -- économie
  0x65cc81636f726365, -- écorce
  0x65cc81636f75746572, -- écouter
  0x65cc81637261736572, -- écraser
  0x65cc81637265cc816d6572, -- écrémer
  0x65cc816372697661696e, -- écrivain
  0x65cc8163726f75, -- écrou
  0x65cc8163756d65, -- écume
  0x65cc816375726575696c, -- écureuil
  0x65cc81646966696572, -- édifier
  0x65cc81647571756572, -- éduquer
  0x65666661636572, -- effacer
  0x6566666563746966, -- effectif
  0x65666669676965, -- effigie
  0x6566666f7274, -- effort
  0x6566667261796572, -- effrayer
  0x6566667573696f6e, -- effusion
  0x65cc8167616c69736572, -- égaliser
  0x65cc816761726572, -- égarer
  0x65cc816a6563746572, -- éjecter
  0x65cc816c61626f726572, -- élaborer
  0x65cc816c6172676972, -- élargir
  0x65cc816c656374726f6e, -- électron
  0x65cc816c65cc8167616e74, -- élégant
  0x65cc816c65cc817068616e74, -- éléphant
  0x65cc816c65cc807665, -- élève
  0x65cc816c696769626c65, -- éligible
  0x65cc816c697469736d65, -- élitisme
  0x65cc816c6f6765, -- éloge
  0x65cc816c756369646572, -- élucider
  0x65cc816c75646572, -- éluder
  0x656d62616c6c6572, -- emballer
  0x656d62656c6c6972, -- embellir
  0x656d6272796f6e, -- embryon
  0x65cc816d657261756465, -- émeraude
  0x65cc816d697373696f6e, -- émission
  0x656d6d656e6572, -- emmener
  0x65cc816d6f74696f6e, -- émotion
  0x65cc816d6f75766f6972, -- émouvoir
  0x656d706572657572, -- empereur
  0x656d706c6f796572, -- employer
  0x656d706f72746572, -- emporter
  0x656d7072697365, -- emprise
  0x65cc816d756c73696f6e, -- émulsion
  0x656e636164726572, -- encadrer
  0x656e636865cc807265, -- enchère
  0x656e636c617665, -- enclave
  0x656e636f636865, -- encoche
  0x656e646967756572, -- endiguer
  0x656e646f73736572, -- endosser
  0x656e64726f6974, -- endroit
  0x656e6475697265, -- enduire
  0x65cc816e6572676965, -- énergie
  0x656e66616e6365, -- enfance
  0x656e6665726d6572, -- enfermer
  0x656e666f756972, -- enfouir
  0x656e6761676572, -- engager
  0x656e67696e, -- engin
  0x656e676c6f626572, -- englober
  0x65cc816e69676d65, -- énigme
  0x656e6a616d626572, -- enjamber
  0x656e6a6575, -- enjeu
  0x656e6c65766572, -- enlever
  0x656e6e656d69, -- ennemi
  0x656e6e7579657578, -- ennuyeux
  0x656e726963686972, -- enrichir
  0x656e726f62616765, -- enrobage
  0x656e736569676e65, -- enseigne
  0x656e746173736572, -- entasser
  0x656e74656e647265, -- entendre
  0x656e74696572, -- entier
  0x656e746f75726572, -- entourer
  0x656e747261766572, -- entraver
  0x65cc816e756d65cc81726572, -- énumérer
  0x656e7661686972, -- envahir
  0x656e766961626c65, -- enviable
  0x656e766f796572, -- envoyer
  0x656e7a796d65, -- enzyme
  0x65cc816f6c69656e, -- éolien
  0x65cc8170616973736972, -- épaissir
  0x65cc81706172676e65, -- épargne
  0x65cc81706174616e74, -- épatant
  0x65cc817061756c65, -- épaule
  0x65cc8170696365726965, -- épicerie
  0x65cc8170696465cc816d6965, -- épidémie
  0x65cc8170696572, -- épier
  0x65cc8170696c6f677565, -- épilogue
  0x65cc8170696e65, -- épine
  0x65cc817069736f6465, -- épisode
  0x65cc8170697461706865, -- épitaphe
  0x65cc81706f717565, -- époque
  0x65cc81707265757665, -- épreuve
  0x65cc8170726f75766572, -- éprouver
  0x65cc8170756973616e74, -- épuisant
  0x65cc81717565727265, -- équerre
  0x65cc817175697065, -- équipe
  0x65cc817269676572, -- ériger
  0x65cc81726f73696f6e, -- érosion
  0x657272657572, -- erreur
  0x65cc8172757074696f6e, -- éruption
  0x657363616c696572, -- escalier
  0x65737061646f6e, -- espadon
  0x65737065cc806365, -- espèce
  0x6573706965cc80676c65, -- espiègle
  0x6573706f6972, -- espoir
  0x657370726974, -- esprit
  0x6573717569766572, -- esquiver
  0x65737361796572, -- essayer
  0x657373656e6365, -- essence
  0x657373696575, -- essieu
  0x6573736f726572, -- essorer
  0x657374696d65, -- estime
  0x6573746f6d6163, -- estomac
  0x65737472616465, -- estrade
  0x65cc8174616765cc807265, -- étagère
  0x65cc8174616c6572, -- étaler
  0x65cc8174616e636865, -- étanche
  0x65cc8174617469717565, -- étatique
  0x65cc817465696e647265, -- éteindre
  0x65cc8174656e646f6972, -- étendoir
  0x65cc817465726e656c, -- éternel
  0x65cc817468616e6f6c, -- éthanol
  0x65cc81746869717565, -- éthique
  0x6574686e6965, -- ethnie
  0x65cc817469726572, -- étirer
  0x65cc81746f66666572, -- étoffer
  0x65cc81746f696c65, -- étoile
  0x65cc81746f6e6e616e74, -- étonnant
  0x65cc81746f7572646972, -- étourdir
  0x65cc817472616e6765, -- étrange
  0x65cc8174726f6974, -- étroit
  0x65cc8174756465, -- étude
  0x657570686f726965, -- euphorie
  0x65cc8176616c756572, -- évaluer
  0x65cc81766173696f6e, -- évasion
  0x65cc8176656e7461696c, -- éventail
  0x65cc81766964656e6365, -- évidence
  0x65cc817669746572, -- éviter
  0x65cc81766f6c75746966, -- évolutif
  0x65cc81766f71756572, -- évoquer
  0x6578616374, -- exact
  0x6578616765cc81726572, -- exagérer
  0x65786175636572, -- exaucer
  0x657863656c6c6572, -- exceller
  0x6578636974616e74, -- excitant
  0x6578636c75736966, -- exclusif
  0x657863757365, -- excuse
  0x657865cc816375746572, -- exécuter
  0x6578656d706c65, -- exemple
  0x65786572636572, -- exercer
  0x657868616c6572, -- exhaler
  0x6578686f72746572, -- exhorter
  0x65786967656e6365, -- exigence
  0x6578696c6572, -- exiler
  0x65786973746572, -- exister
  0x65786f7469717565, -- exotique
  0x65787065cc8164696572, -- expédier
  0x6578706c6f726572, -- explorer
  0x6578706f736572, -- exposer
  0x65787072696d6572, -- exprimer
  0x657871756973, -- exquis
  0x657874656e736966, -- extensif
  0x6578747261697265, -- extraire
  0x6578756c746572, -- exulter
  0x6661626c65, -- fable
  0x666162756c657578, -- fabuleux
  0x66616365747465, -- facette
  0x666163696c65, -- facile
  0x66616374757265, -- facture
  0x666169626c6972, -- faiblir
  0x66616c61697365, -- falaise
  0x66616d657578, -- fameux
  0x66616d696c6c65, -- famille
  0x66617263657572, -- farceur
  0x66617266656c75, -- farfelu
  0x666172696e65, -- farine
  0x6661726f75636865, -- farouche
  0x66617363696e6572, -- fasciner
  0x666174616c, -- fatal
  0x66617469677565, -- fatigue
  0x666175636f6e, -- faucon
  0x666175746966, -- fautif
  0x666176657572, -- faveur
  0x6661766f7269, -- favori
  0x6665cc816272696c65, -- fébrile
  0x6665cc81636f6e646572, -- féconder
  0x6665cc816465cc81726572, -- fédérer
  0x6665cc816c696e, -- félin
  0x66656d6d65, -- femme
  0x6665cc816d7572, -- fémur
  0x66656e646f6972, -- fendoir
  0x6665cc816f64616c, -- féodal
  0x6665726d6572, -- fermer
  0x6665cc81726f6365, -- féroce
  0x66657276657572, -- ferveur
  0x666573746976616c, -- festival
  0x666575696c6c65, -- feuille
  0x666575747265, -- feutre
  0x6665cc817672696572, -- février
  0x66696173636f, -- fiasco
  0x666963656c6572, -- ficeler
  0x666963746966, -- fictif
  0x66696465cc806c65, -- fidèle
  0x666967757265, -- figure
  0x66696c6174757265, -- filature
  0x66696c6574616765, -- filetage
  0x66696c6965cc807265, -- filière
  0x66696c6c65756c, -- filleul
  0x66696c6d6572, -- filmer
  0x66696c6f75, -- filou
  0x66696c74726572, -- filtrer
  0x66696e616e636572, -- financer
  0x66696e6972, -- finir
  0x66696f6c65, -- fiole
  0x6669726d65, -- firme
  0x66697373757265, -- fissure
  0x6669786572, -- fixer
  0x666c6169726572, -- flairer
  0x666c616d6d65, -- flamme
  0x666c6173717565, -- flasque
  0x666c617474657572, -- flatteur
  0x666c65cc816175, -- fléau
  0x666c65cc80636865, -- flèche
  0x666c657572, -- fleur
  0x666c6578696f6e, -- flexion
  0x666c6f636f6e, -- flocon
  0x666c6f7265, -- flore
  0x666c756374756572, -- fluctuer
  0x666c75696465, -- fluide
  0x666c757669616c, -- fluvial
  0x666f6c6965, -- folie
  0x666f6e6465726965, -- fonderie
  0x666f6e6769626c65, -- fongible
  0x666f6e7461696e65, -- fontaine
  0x666f72636572, -- forcer
  0x666f726765726f6e, -- forgeron
  0x666f726d756c6572, -- formuler
  0x666f7274756e65, -- fortune
  0x666f7373696c65, -- fossile
  0x666f75647265, -- foudre
  0x666f756765cc807265, -- fougère
  0x666f75696c6c6572, -- fouiller
  0x666f756c757265, -- foulure
  0x666f75726d69, -- fourmi
  0x66726167696c65, -- fragile
  0x667261697365, -- fraise
  0x6672616e63686972, -- franchir
  0x66726170706572, -- frapper
  0x66726179657572, -- frayeur
  0x667265cc8167617465, -- frégate
  0x667265696e6572, -- freiner
  0x6672656c6f6e, -- frelon
  0x667265cc816d6972, -- frémir
  0x667265cc816e65cc81736965, -- frénésie
  0x667265cc807265, -- frère
  0x66726961626c65, -- friable
  0x6672696374696f6e, -- friction
  0x66726973736f6e, -- frisson
  0x667269766f6c65, -- frivole
  0x66726f6964, -- froid
  0x66726f6d616765, -- fromage
  0x66726f6e74616c, -- frontal
  0x66726f74746572, -- frotter
  0x6672756974, -- fruit
  0x66756769746966, -- fugitif
  0x6675697465, -- fuite
  0x667572657572, -- fureur
  0x66757269657578, -- furieux
  0x667572746966, -- furtif
  0x667573696f6e, -- fusion
  0x6675747572, -- futur
  0x6761676e6572, -- gagner
  0x67616c61786965, -- galaxie
  0x67616c65726965, -- galerie
  0x67616d6261646572, -- gambader
  0x676172616e746972, -- garantir
  0x6761726469656e, -- gardien
  0x6761726e6972, -- garnir
  0x6761727269677565, -- garrigue
  0x67617a656c6c65, -- gazelle
  0x67617a6f6e, -- gazon
  0x6765cc81616e74, -- géant
  0x6765cc816c6174696e65, -- gélatine
  0x6765cc816c756c65, -- gélule
  0x67656e6461726d65, -- gendarme
  0x6765cc816e65cc8172616c, -- général
  0x6765cc816e6965, -- génie
  0x67656e6f75, -- genou
  0x67656e74696c, -- gentil
  0x6765cc816f6c6f676965, -- géologie
  0x6765cc816f6d65cc80747265, -- géomètre
  0x6765cc8172616e69756d, -- géranium
  0x6765726d65, -- germe
  0x6765737475656c, -- gestuel
  0x676579736572, -- geyser
  0x676962696572, -- gibier
  0x6769636c6572, -- gicler
  0x676972616665, -- girafe
  0x6769767265, -- givre
  0x676c616365, -- glace
  0x676c61697665, -- glaive
  0x676c6973736572, -- glisser
  0x676c6f6265, -- globe
  0x676c6f697265, -- gloire
  0x676c6f7269657578, -- glorieux
  0x676f6c66657572, -- golfeur
  0x676f6d6d65, -- gomme
  0x676f6e666c6572, -- gonfler
  0x676f726765, -- gorge
  0x676f72696c6c65, -- gorille
  0x676f7564726f6e, -- goudron
  0x676f7566667265, -- gouffre
  0x676f756c6f74, -- goulot
  0x676f7570696c6c65, -- goupille
  0x676f75726d616e64, -- gourmand
  0x676f75747465, -- goutte
  0x6772616475656c, -- graduel
  0x6772616666697469, -- graffiti
  0x677261696e65, -- graine
  0x6772616e64, -- grand
  0x6772617070696e, -- grappin
  0x67726174756974, -- gratuit
  0x677261766972, -- gravir
  0x6772656e6174, -- grenat
  0x6772696666757265, -- griffure
  0x6772696c6c6572, -- griller
  0x6772696d706572, -- grimper
  0x67726f676e6572, -- grogner
  0x67726f6e646572, -- gronder
  0x67726f747465, -- grotte
  0x67726f757065, -- groupe
  0x677275676572, -- gruger
  0x67727574696572, -- grutier
  0x6772757965cc807265, -- gruyère
  0x677565cc8170617264, -- guépard
  0x6775657272696572, -- guerrier
  0x6775696465, -- guide
  0x6775696d61757665, -- guimauve
  0x67756974617265, -- guitare
  0x6775737461746966, -- gustatif
  0x67796d6e61737465, -- gymnaste
  0x6779726f73746174, -- gyrostat
  0x6861626974756465, -- habitude
  0x686163686f6972, -- hachoir
  0x68616c7465, -- halte
  0x68616d656175, -- hameau
  0x68616e676172, -- hangar
  0x68616e6e65746f6e, -- hanneton
  0x68617269636f74, -- haricot
  0x6861726d6f6e6965, -- harmonie
  0x686172706f6e, -- harpon
  0x686173617264, -- hasard
  0x6865cc816c69756d, -- hélium
  0x6865cc816d61746f6d65, -- hématome
  0x6865726265, -- herbe
  0x6865cc81726973736f6e, -- hérisson
  0x6865726d696e65, -- hermine
  0x6865cc81726f6e, -- héron
  0x6865cc817369746572, -- hésiter
  0x68657572657578, -- heureux
  0x68696265726e6572, -- hiberner
  0x6869626f75, -- hibou
  0x68696c6172616e74, -- hilarant
  0x686973746f697265, -- histoire
  0x6869766572, -- hiver
  0x686f6d617264, -- homard
  0x686f6d6d616765, -- hommage
  0x686f6d6f6765cc806e65, -- homogène
  0x686f6e6e657572, -- honneur
  0x686f6e6f726572, -- honorer
  0x686f6e74657578, -- honteux
  0x686f726465, -- horde
  0x686f72697a6f6e, -- horizon
  0x686f726c6f6765, -- horloge
  0x686f726d6f6e65, -- hormone
  0x686f727269626c65, -- horrible
  0x686f756c657578, -- houleux
  0x686f75737365, -- housse
  0x6875626c6f74, -- hublot
  0x6875696c657578, -- huileux
  0x68756d61696e, -- humain
  0x68756d626c65, -- humble
  0x68756d696465, -- humide
  0x68756d6f7572, -- humour
  0x6875726c6572, -- hurler
  0x687964726f6d656c, -- hydromel
  0x6879676965cc806e65, -- hygiène
  0x68796d6e65, -- hymne
  0x6879706e6f7365, -- hypnose
  0x6964796c6c65, -- idylle
  0x69676e6f726572, -- ignorer
  0x696775616e65, -- iguane
  0x696c6c6963697465, -- illicite
  0x696c6c7573696f6e, -- illusion
  0x696d616765, -- image
  0x696d6269626572, -- imbiber
  0x696d69746572, -- imiter
  0x696d6d656e7365, -- immense
  0x696d6d6f62696c65, -- immobile
  0x696d6d7561626c65, -- immuable
  0x696d70616374, -- impact
  0x696d7065cc817269616c, -- impérial
  0x696d706c6f726572, -- implorer
  0x696d706f736572, -- imposer
  0x696d7072696d6572, -- imprimer
  0x696d7075746572, -- imputer
  0x696e6361726e6572, -- incarner
  0x696e63656e646965, -- incendie
  0x696e636964656e74, -- incident
  0x696e636c696e6572, -- incliner
  0x696e636f6c6f7265, -- incolore
  0x696e6465786572, -- indexer
  0x696e64696365, -- indice
  0x696e647563746966, -- inductif
  0x696e65cc81646974, -- inédit
  0x696e6570746965, -- ineptie
  0x696e6578616374, -- inexact
  0x696e66696e69, -- infini
  0x696e666c69676572, -- infliger
  0x696e666f726d6572, -- informer
  0x696e667573696f6e, -- infusion
  0x696e6765cc81726572, -- ingérer
  0x696e68616c6572, -- inhaler
  0x696e6869626572, -- inhiber
  0x696e6a6563746572, -- injecter
  0x696e6a757265, -- injure
  0x696e6e6f63656e74, -- innocent
  0x696e6f63756c6572, -- inoculer
  0x696e6f6e646572, -- inonder
  0x696e736372697265, -- inscrire
  0x696e7365637465, -- insecte
  0x696e7369676e65, -- insigne
  0x696e736f6c697465, -- insolite
  0x696e737069726572, -- inspirer
  0x696e7374696e6374, -- instinct
  0x696e73756c746572, -- insulter
  0x696e74616374, -- intact
  0x696e74656e7365, -- intense
  0x696e74696d65, -- intime
  0x696e747269677565, -- intrigue
  0x696e747569746966, -- intuitif
  0x696e7574696c65, -- inutile
  0x696e766173696f6e, -- invasion
  0x696e76656e746572, -- inventer
  0x696e7669746572, -- inviter
  0x696e766f71756572, -- invoquer
  0x69726f6e69717565, -- ironique
  0x6972726164696572, -- irradier
  0x69727265cc81656c, -- irréel
  0x69727269746572, -- irriter
  0x69736f6c6572, -- isoler
  0x69766f697265, -- ivoire
  0x69767265737365, -- ivresse
  0x6a6167756172, -- jaguar
  0x6a61696c6c6972, -- jaillir
  0x6a616d6265, -- jambe
  0x6a616e76696572, -- janvier
  0x6a617264696e, -- jardin
  0x6a6175676572, -- jauger
  0x6a61756e65, -- jaune
  0x6a6176656c6f74, -- javelot
  0x6a657461626c65, -- jetable
  0x6a65746f6e, -- jeton
  0x6a65756469, -- jeudi
  0x6a65756e65737365, -- jeunesse
  0x6a6f696e647265, -- joindre
  0x6a6f6e63686572, -- joncher
  0x6a6f6e676c6572, -- jongler
  0x6a6f75657572, -- joueur
  0x6a6f756973736966, -- jouissif
  0x6a6f75726e616c, -- journal
  0x6a6f7669616c, -- jovial
  0x6a6f796175, -- joyau
  0x6a6f79657578, -- joyeux
  0x6a7562696c6572, -- jubiler
  0x6a7567656d656e74, -- jugement
  0x6a756e696f72, -- junior
  0x6a75706f6e, -- jupon
  0x6a757269737465, -- juriste
  0x6a757374696365, -- justice
  0x6a7574657578, -- juteux
  0x6a757665cc816e696c65, -- juvénile
  0x6b6179616b, -- kayak
  0x6b696d6f6e6f, -- kimono
  0x6b696f73717565, -- kiosque
  0x6c6162656c, -- label
  0x6c616269616c, -- labial
  0x6c61626f75726572, -- labourer
  0x6c616365cc81726572, -- lacérer
  0x6c6163746f7365, -- lactose
  0x6c6167756e65, -- lagune
  0x6c61696e65, -- laine
  0x6c616973736572, -- laisser
  0x6c616974696572, -- laitier
  0x6c616d62656175, -- lambeau
  0x6c616d656c6c65, -- lamelle
  0x6c616d7065, -- lampe
  0x6c616e63657572, -- lanceur
  0x6c616e67616765, -- langage
  0x6c616e7465726e65, -- lanterne
  0x6c6170696e, -- lapin
  0x6c617267657572, -- largeur
  0x6c61726d65, -- larme
  0x6c617572696572, -- laurier
  0x6c617661626f, -- lavabo
  0x6c61766f6972, -- lavoir
  0x6c656374757265, -- lecture
  0x6c65cc8167616c, -- légal
  0x6c65cc81676572, -- léger
  0x6c65cc8167756d65, -- légume
  0x6c657373697665, -- lessive
  0x6c6574747265, -- lettre
  0x6c6576696572, -- levier
  0x6c657869717565, -- lexique
  0x6c65cc817a617264, -- lézard
  0x6c6961737365, -- liasse
  0x6c696265cc81726572, -- libérer
  0x6c69627265, -- libre
  0x6c6963656e6365, -- licence
  0x6c69636f726e65, -- licorne
  0x6c6965cc806765, -- liège
  0x6c6965cc80767265, -- lièvre
  0x6c69676174757265, -- ligature
  0x6c69676f746572, -- ligoter
  0x6c69677565, -- ligue
  0x6c696d6572, -- limer
  0x6c696d697465, -- limite
  0x6c696d6f6e616465, -- limonade
  0x6c696d70696465, -- limpide
  0x6c696e65cc8161697265, -- linéaire
  0x6c696e676f74, -- lingot
  0x6c696f6e63656175, -- lionceau
  0x6c697175696465, -- liquide
  0x6c69736965cc807265, -- lisière
  0x6c6973746572, -- lister
  0x6c69746869756d, -- lithium
  0x6c6974696765, -- litige
  0x6c6974746f72616c, -- littoral
  0x6c697672657572, -- livreur
  0x6c6f6769717565, -- logique
  0x6c6f696e7461696e, -- lointain
  0x6c6f69736972, -- loisir
  0x6c6f6d62726963, -- lombric
  0x6c6f7465726965, -- loterie
  0x6c6f756572, -- louer
  0x6c6f757264, -- lourd
  0x6c6f75747265, -- loutre
  0x6c6f757665, -- louve
  0x6c6f79616c, -- loyal
  0x6c75626965, -- lubie
  0x6c7563696465, -- lucide
  0x6c75637261746966, -- lucratif
  0x6c75657572, -- lueur
  0x6c756775627265, -- lugubre
  0x6c756973616e74, -- luisant
  0x6c756d6965cc807265, -- lumière
  0x6c756e61697265, -- lunaire
  0x6c756e6469, -- lundi
  0x6c75726f6e, -- luron
  0x6c7574746572, -- lutter
  0x6c757875657578, -- luxueux
  0x6d616368696e65, -- machine
  0x6d61676173696e, -- magasin
  0x6d6167656e7461, -- magenta
  0x6d616769717565, -- magique
  0x6d6169677265, -- maigre
  0x6d61696c6c6f6e, -- maillon
  0x6d61696e7469656e, -- maintien
  0x6d6169726965, -- mairie
  0x6d6169736f6e, -- maison
  0x6d616a6f726572, -- majorer
  0x6d616c61786572, -- malaxer
  0x6d616c65cc8166696365, -- maléfice
  0x6d616c68657572, -- malheur
  0x6d616c696365, -- malice
  0x6d616c6c65747465, -- mallette
  0x6d616d6d6f757468, -- mammouth
  0x6d616e6461746572, -- mandater
  0x6d616e6961626c65, -- maniable
  0x6d616e7175616e74, -- manquant
  0x6d616e74656175, -- manteau
  0x6d616e75656c, -- manuel
  0x6d61726174686f6e, -- marathon
  0x6d6172627265, -- marbre
  0x6d61726368616e64, -- marchand
  0x6d61726469, -- mardi
  0x6d61726974696d65, -- maritime
  0x6d61727175657572, -- marqueur
  0x6d6172726f6e, -- marron
  0x6d617274656c6572, -- marteler
  0x6d6173636f747465, -- mascotte
  0x6d6173736966, -- massif
  0x6d617465cc817269656c, -- matériel
  0x6d61746965cc807265, -- matière
  0x6d61747261717565, -- matraque
  0x6d617564697265, -- maudire
  0x6d61757373616465, -- maussade
  0x6d61757665, -- mauve
  0x6d6178696d616c, -- maximal
  0x6d65cc816368616e74, -- méchant
  0x6d65cc81636f6e6e75, -- méconnu
  0x6d65cc816461696c6c65, -- médaille
  0x6d65cc81646563696e, -- médecin
  0x6d65cc816469746572, -- méditer
  0x6d65cc8164757365, -- méduse
  0x6d65696c6c657572, -- meilleur
  0x6d65cc816c616e6765, -- mélange
  0x6d65cc816c6f646965, -- mélodie
  0x6d656d627265, -- membre
  0x6d65cc816d6f697265, -- mémoire
  0x6d656e61636572, -- menacer
  0x6d656e6572, -- mener
  0x6d656e686972, -- menhir
  0x6d656e736f6e6765, -- mensonge
  0x6d656e746f72, -- mentor
  0x6d65726372656469, -- mercredi
  0x6d65cc8172697465, -- mérite
  0x6d65726c65, -- merle
  0x6d65737361676572, -- messager
  0x6d6573757265, -- mesure
  0x6d65cc8174616c, -- métal
  0x6d65cc817465cc816f7265, -- météore
  0x6d65cc8174686f6465, -- méthode
  0x6d65cc8174696572, -- métier
  0x6d6575626c65, -- meuble
  0x6d6961756c6572, -- miauler
  0x6d6963726f6265, -- microbe
  0x6d6965747465, -- miette
  0x6d69676e6f6e, -- mignon
  0x6d6967726572, -- migrer
  0x6d696c696575, -- milieu
  0x6d696c6c696f6e, -- million
  0x6d696d69717565, -- mimique
  0x6d696e6365, -- mince
  0x6d696e65cc8172616c, -- minéral
  0x6d696e696d616c, -- minimal
  0x6d696e6f726572, -- minorer
  0x6d696e757465, -- minute
  0x6d697261636c65, -- miracle
  0x6d69726f69746572, -- miroiter
  0x6d697373696c65, -- missile
  0x6d69787465, -- mixte
  0x6d6f62696c65, -- mobile
  0x6d6f6465726e65, -- moderne
  0x6d6f656c6c657578, -- moelleux
  0x6d6f6e6469616c, -- mondial
  0x6d6f6e6974657572, -- moniteur
  0x6d6f6e6e616965, -- monnaie
  0x6d6f6e6f746f6e65, -- monotone
  0x6d6f6e73747265, -- monstre
  0x6d6f6e7461676e65, -- montagne
  0x6d6f6e756d656e74, -- monument
  0x6d6f7175657572, -- moqueur
  0x6d6f7263656175, -- morceau
  0x6d6f7273757265, -- morsure
  0x6d6f7274696572, -- mortier
  0x6d6f74657572, -- moteur
  0x6d6f746966, -- motif
  0x6d6f75636865, -- mouche
  0x6d6f75666c65, -- moufle
  0x6d6f756c696e, -- moulin
  0x6d6f7573736f6e, -- mousson
  0x6d6f75746f6e, -- mouton
  0x6d6f7576616e74, -- mouvant
  0x6d756c7469706c65, -- multiple
  0x6d756e6974696f6e, -- munition
  0x6d757261696c6c65, -- muraille
  0x6d757265cc806e65, -- murène
  0x6d75726d757265, -- murmure
  0x6d7573636c65, -- muscle
  0x6d757365cc81756d, -- muséum
  0x6d7573696369656e, -- musicien
  0x6d75746174696f6e, -- mutation
  0x6d75746572, -- muter
  0x6d757475656c, -- mutuel
  0x6d797269616465, -- myriade
  0x6d797274696c6c65, -- myrtille
  0x6d79737465cc807265, -- mystère
  0x6d79746869717565, -- mythique
  0x6e6167657572, -- nageur
  0x6e61707065, -- nappe
  0x6e617271756f6973, -- narquois
  0x6e6172726572, -- narrer
  0x6e61746174696f6e, -- natation
  0x6e6174696f6e, -- nation
  0x6e6174757265, -- nature
  0x6e61756672616765, -- naufrage
  0x6e61757469717565, -- nautique
  0x6e6176697265, -- navire
  0x6e65cc8162756c657578, -- nébuleux
  0x6e6563746172, -- nectar
  0x6e65cc816661737465, -- néfaste
  0x6e65cc81676174696f6e, -- négation
  0x6e65cc81676c69676572, -- négliger
  0x6e65cc81676f63696572, -- négocier
  0x6e65696765, -- neige
  0x6e657276657578, -- nerveux
  0x6e6574746f796572, -- nettoyer
  0x6e6575726f6e65, -- neurone
  0x6e657574726f6e, -- neutron
  0x6e65766575, -- neveu
  0x6e69636865, -- niche
  0x6e69636b656c, -- nickel
  0x6e697472617465, -- nitrate
  0x6e6976656175, -- niveau
  0x6e6f626c65, -- noble
  0x6e6f636966, -- nocif
  0x6e6f637475726e65, -- nocturne
  0x6e6f697263657572, -- noirceur
  0x6e6f697365747465, -- noisette
  0x6e6f6d616465, -- nomade
  0x6e6f6d6272657578, -- nombreux
  0x6e6f6d6d6572, -- nommer
  0x6e6f726d61746966, -- normatif
  0x6e6f7461626c65, -- notable
  0x6e6f746966696572, -- notifier
  0x6e6f746f697265, -- notoire
  0x6e6f7572726972, -- nourrir
  0x6e6f7576656175, -- nouveau
  0x6e6f766174657572, -- novateur
  0x6e6f76656d627265, -- novembre
  0x6e6f76696365, -- novice
  0x6e75616765, -- nuage
  0x6e75616e636572, -- nuancer
  0x6e75697265, -- nuire
  0x6e75697369626c65, -- nuisible
  0x6e756d65cc81726f, -- numéro
  0x6e75707469616c, -- nuptial
  0x6e75717565, -- nuque
  0x6e75747269746966, -- nutritif
  0x6f6265cc816972, -- obéir
  0x6f626a6563746966, -- objectif
  0x6f626c69676572, -- obliger
  0x6f6273637572, -- obscur
  0x6f62736572766572, -- observer
  0x6f62737461636c65, -- obstacle
  0x6f6274656e6972, -- obtenir
  0x6f627475726572, -- obturer
  0x6f63636173696f6e, -- occasion
  0x6f636375706572, -- occuper
  0x6f6365cc81616e, -- océan
  0x6f63746f627265, -- octobre
  0x6f6374726f796572, -- octroyer
  0x6f637475706c6572, -- octupler
  0x6f63756c61697265, -- oculaire
  0x6f64657572, -- odeur
  0x6f646f72616e74, -- odorant
  0x6f6666656e736572, -- offenser
  0x6f66666963696572, -- officier
  0x6f6666726972, -- offrir
  0x6f67697665, -- ogive
  0x6f6973656175, -- oiseau
  0x6f6973696c6c6f6e, -- oisillon
  0x6f6c666163746966, -- olfactif
  0x6f6c6976696572, -- olivier
  0x6f6d6272616765, -- ombrage
  0x6f6d6574747265, -- omettre
  0x6f6e637475657578, -- onctueux
  0x6f6e64756c6572, -- onduler
  0x6f6e65cc8172657578, -- onéreux
  0x6f6e697269717565, -- onirique
  0x6f70616c65, -- opale
  0x6f7061717565, -- opaque
  0x6f7065cc81726572, -- opérer
  0x6f70696e696f6e, -- opinion
  0x6f70706f7274756e, -- opportun
  0x6f707072696d6572, -- opprimer
  0x6f70746572, -- opter
  0x6f707469717565, -- optique
  0x6f726167657578, -- orageux
  0x6f72616e6765, -- orange
  0x6f7262697465, -- orbite
  0x6f72646f6e6e6572, -- ordonner
  0x6f7265696c6c65, -- oreille
  0x6f7267616e65, -- organe
  0x6f72677565696c, -- orgueil
  0x6f726966696365, -- orifice
  0x6f726e656d656e74, -- ornement
  0x6f72717565, -- orque
  0x6f72746965, -- ortie
  0x6f7363696c6c6572, -- osciller
  0x6f736d6f7365, -- osmose
  0x6f73736174757265, -- ossature
  0x6f7461726965, -- otarie
  0x6f75726167616e, -- ouragan
  0x6f7572736f6e, -- ourson
  0x6f7574696c, -- outil
  0x6f75747261676572, -- outrager
  0x6f757672616765, -- ouvrage
  0x6f766174696f6e, -- ovation
  0x6f78796465, -- oxyde
  0x6f78796765cc806e65, -- oxygène
  0x6f7a6f6e65, -- ozone
  0x7061697369626c65, -- paisible
  0x70616c616365, -- palace
  0x70616c6d617265cc8073, -- palmarès
  0x70616c6f75726465, -- palourde
  0x70616c706572, -- palper
  0x70616e61636865, -- panache
  0x70616e6461, -- panda
  0x70616e676f6c696e, -- pangolin
  0x70616e6971756572, -- paniquer
  0x70616e6e656175, -- panneau
  0x70616e6f72616d61, -- panorama
  0x70616e74616c6f6e, -- pantalon
  0x706170617965, -- papaye
  0x706170696572, -- papier
  0x7061706f746572, -- papoter
  0x70617079727573, -- papyrus
  0x70617261646f7865, -- paradoxe
  0x70617263656c6c65, -- parcelle
  0x70617265737365, -- paresse
  0x70617266756d6572, -- parfumer
  0x7061726c6572, -- parler
  0x7061726f6c65, -- parole
  0x7061727261696e, -- parrain
  0x70617273656d6572, -- parsemer
  0x7061727461676572, -- partager
  0x706172757265, -- parure
  0x70617276656e6972, -- parvenir
  0x70617373696f6e, -- passion
  0x7061737465cc80717565, -- pastèque
  0x70617465726e656c, -- paternel
  0x70617469656e6365, -- patience
  0x706174726f6e, -- patron
  0x706176696c6c6f6e, -- pavillon
  0x7061766f69736572, -- pavoiser
  0x7061796572, -- payer
  0x70617973616765, -- paysage
  0x706569676e65, -- peigne
  0x7065696e747265, -- peintre
  0x70656c616765, -- pelage
  0x7065cc816c6963616e, -- pélican
  0x70656c6c65, -- pelle
  0x70656c6f757365, -- pelouse
  0x70656c75636865, -- peluche
  0x70656e64756c65, -- pendule
  0x7065cc816e65cc8174726572, -- pénétrer
  0x7065cc816e69626c65, -- pénible
  0x70656e736966, -- pensif
  0x7065cc816e75726965, -- pénurie
  0x7065cc8170697465, -- pépite
  0x7065cc81706c756d, -- péplum
  0x70657264726978, -- perdrix
  0x706572666f726572, -- perforer
  0x7065cc8172696f6465, -- période
  0x7065726d75746572, -- permuter
  0x706572706c657865, -- perplexe
  0x70657273696c, -- persil
  0x7065727465, -- perte
  0x7065736572, -- peser
  0x7065cc8174616c65, -- pétale
  0x7065746974, -- petit
  0x7065cc8174726972, -- pétrir
  0x706575706c65, -- peuple
  0x70686172616f6e, -- pharaon
  0x70686f626965, -- phobie
  0x70686f717565, -- phoque
  0x70686f746f6e, -- photon
  0x706872617365, -- phrase
  0x7068797369717565, -- physique
  0x7069616e6f, -- piano
  0x706963747572616c, -- pictural
  0x706965cc806365, -- pièce
  0x706965727265, -- pierre
  0x70696575767265, -- pieuvre
  0x70696c6f7465, -- pilote
  0x70696e63656175, -- pinceau
  0x70697065747465, -- pipette
  0x706971756572, -- piquer
  0x7069726f677565, -- pirogue
  0x70697363696e65, -- piscine
  0x706973746f6e, -- piston
  0x7069766f746572, -- pivoter
  0x706978656c, -- pixel
  0x70697a7a61, -- pizza
  0x706c6163617264, -- placard
  0x706c61666f6e64, -- plafond
  0x706c6169736972, -- plaisir
  0x706c616e6572, -- planer
  0x706c61717565, -- plaque
  0x706c617374726f6e, -- plastron
  0x706c6174656175, -- plateau
  0x706c6575726572, -- pleurer
  0x706c65787573, -- plexus
  0x706c69616765, -- pliage
  0x706c6f6d62, -- plomb
  0x706c6f6e676572, -- plonger
  0x706c756965, -- pluie
  0x706c756d616765, -- plumage
  0x706f636865747465, -- pochette
  0x706f65cc81736965, -- poésie
  0x706f65cc807465, -- poète
  0x706f696e7465, -- pointe
  0x706f6972696572, -- poirier
  0x706f6973736f6e, -- poisson
  0x706f69767265, -- poivre
  0x706f6c61697265, -- polaire
  0x706f6c6963696572, -- policier
  0x706f6c6c656e, -- pollen
  0x706f6c79676f6e65, -- polygone
  0x706f6d6d616465, -- pommade
  0x706f6d70696572, -- pompier
  0x706f6e637475656c, -- ponctuel
  0x706f6e6465cc81726572, -- pondérer
  0x706f6e6579, -- poney
  0x706f727469717565, -- portique
  0x706f736974696f6e, -- position
  0x706f737365cc81646572, -- posséder
  0x706f7374757265, -- posture
  0x706f7461676572, -- potager
  0x706f74656175, -- poteau
  0x706f74696f6e, -- potion
  0x706f756365, -- pouce
  0x706f756c61696e, -- poulain
  0x706f756d6f6e, -- poumon
  0x706f7572707265, -- pourpre
  0x706f757373696e, -- poussin
  0x706f75766f6972, -- pouvoir
  0x70726169726965, -- prairie
  0x7072617469717565, -- pratique
  0x707265cc816369657578, -- précieux
  0x707265cc8164697265, -- prédire
  0x707265cc8166697865, -- préfixe
  0x707265cc816c756465, -- prélude
  0x707265cc816e6f6d, -- prénom
  0x707265cc8173656e6365, -- présence
  0x707265cc817465787465, -- prétexte
  0x707265cc81766f6972, -- prévoir
  0x7072696d69746966, -- primitif
  0x7072696e6365, -- prince
  0x707269736f6e, -- prison
  0x707269766572, -- priver
  0x70726f626c65cc806d65, -- problème
  0x70726f6365cc81646572, -- procéder
  0x70726f64696765, -- prodige
  0x70726f666f6e64, -- profond
  0x70726f677265cc8073, -- progrès
  0x70726f6965, -- proie
  0x70726f6a65746572, -- projeter
  0x70726f6c6f677565, -- prologue
  0x70726f6d656e6572, -- promener
  0x70726f707265, -- propre
  0x70726f737065cc807265, -- prospère
  0x70726f7465cc81676572, -- protéger
  0x70726f7565737365, -- prouesse
  0x70726f7665726265, -- proverbe
  0x70727564656e6365, -- prudence
  0x7072756e656175, -- pruneau
  0x70737963686f7365, -- psychose
  0x7075626c6963, -- public
  0x70756365726f6e, -- puceron
  0x707569736572, -- puiser
  0x70756c7065, -- pulpe
  0x70756c736172, -- pulsar
  0x70756e61697365, -- punaise
  0x70756e69746966, -- punitif
  0x70757069747265, -- pupitre
  0x7075726966696572, -- purifier
  0x70757a7a6c65, -- puzzle
  0x707972616d696465, -- pyramide
  0x717561736172, -- quasar
  0x71756572656c6c65, -- querelle
  0x7175657374696f6e, -- question
  0x71756965cc8174756465, -- quiétude
  0x71756974746572, -- quitter
  0x71756f7469656e74, -- quotient
  0x726163696e65, -- racine
  0x7261636f6e746572, -- raconter
  0x72616469657578, -- radieux
  0x7261676f6e64696e, -- ragondin
  0x72616964657572, -- raideur
  0x72616973696e, -- raisin
  0x72616c656e746972, -- ralentir
  0x72616c6c6f6e6765, -- rallonge
  0x72616d6173736572, -- ramasser
  0x726170696465, -- rapide
  0x726173616765, -- rasage
  0x7261746973736572, -- ratisser
  0x72617661676572, -- ravager
  0x726176696e, -- ravin
  0x7261796f6e6e6572, -- rayonner
  0x7265cc816163746966, -- réactif
  0x7265cc8161676972, -- réagir
  0x7265cc81616c69736572, -- réaliser
  0x7265cc81616e696d6572, -- réanimer
  0x72656365766f6972, -- recevoir
  0x7265cc816369746572, -- réciter
  0x7265cc81636c616d6572, -- réclamer
  0x7265cc81636f6c746572, -- récolter
  0x7265637275746572, -- recruter
  0x726563756c6572, -- reculer
  0x72656379636c6572, -- recycler
  0x7265cc816469676572, -- rédiger
  0x7265646f75746572, -- redouter
  0x72656661697265, -- refaire
  0x7265cc81666c657865, -- réflexe
  0x7265cc81666f726d6572, -- réformer
  0x7265667261696e, -- refrain
  0x726566756765, -- refuge
  0x7265cc8167616c69656e, -- régalien
  0x7265cc8167696f6e, -- région
  0x7265cc81676c616765, -- réglage
  0x7265cc8167756c696572, -- régulier
  0x7265cc81697465cc81726572, -- réitérer
  0x72656a65746572, -- rejeter
  0x72656a6f756572, -- rejouer
  0x72656c61746966, -- relatif
  0x72656c65766572, -- relever
  0x72656c696566, -- relief
  0x72656d6172717565, -- remarque
  0x72656d65cc806465, -- remède
  0x72656d697365, -- remise
  0x72656d6f6e746572, -- remonter
  0x72656d706c6972, -- remplir
  0x72656d756572, -- remuer
  0x72656e617264, -- renard
  0x72656e666f7274, -- renfort
  0x72656e69666c6572, -- renifler
  0x72656e6f6e636572, -- renoncer
  0x72656e74726572, -- rentrer
  0x72656e766f69, -- renvoi
  0x7265706c696572, -- replier
  0x7265706f72746572, -- reporter
  0x72657072697365, -- reprise
  0x72657074696c65, -- reptile
  0x72657175696e, -- requin
  0x7265cc817365727665, -- réserve
  0x7265cc8173696e657578, -- résineux
  0x7265cc81736f75647265, -- résoudre
  0x72657370656374, -- respect
  0x726573746572, -- rester
  0x7265cc8173756c746174, -- résultat
  0x7265cc817461626c6972, -- rétablir
  0x726574656e6972, -- retenir
  0x7265cc81746963756c65, -- réticule
  0x7265746f6d626572, -- retomber
  0x7265747261636572, -- retracer
  0x7265cc81756e696f6e, -- réunion
  0x7265cc817573736972, -- réussir
  0x726576616e636865, -- revanche
  0x72657669767265, -- revivre
  0x7265cc81766f6c7465, -- révolte
  0x7265cc8176756c736966, -- révulsif
  0x7269636865737365, -- richesse
  0x726964656175, -- rideau
  0x7269657572, -- rieur
  0x726967696465, -- rigide
  0x7269676f6c6572, -- rigoler
  0x72696e636572, -- rincer
  0x7269706f73746572, -- riposter
  0x72697369626c65, -- risible
  0x726973717565, -- risque
  0x72697475656c, -- rituel
  0x726976616c, -- rival
  0x7269766965cc807265, -- rivière
  0x726f6368657578, -- rocheux
  0x726f6d616e6365, -- romance
  0x726f6d707265, -- rompre
  0x726f6e6365, -- ronce
  0x726f6e64696e, -- rondin
  0x726f73656175, -- roseau
  0x726f73696572, -- rosier
  0x726f7461746966, -- rotatif
  0x726f746f72, -- rotor
  0x726f74756c65, -- rotule
  0x726f756765, -- rouge
  0x726f75696c6c65, -- rouille
  0x726f756c656175, -- rouleau
  0x726f7574696e65, -- routine
  0x726f7961756d65, -- royaume
  0x727562616e, -- ruban
  0x7275626973, -- rubis
  0x7275636865, -- ruche
  0x7275656c6c65, -- ruelle
  0x72756775657578, -- rugueux
  0x7275696e6572, -- ruiner
  0x7275697373656175, -- ruisseau
  0x7275736572, -- ruser
  0x7275737469717565, -- rustique
  0x727974686d65, -- rythme
  0x7361626c6572, -- sabler
  0x7361626f746572, -- saboter
  0x7361627265, -- sabre
  0x7361636f636865, -- sacoche
  0x736166617269, -- safari
  0x73616765737365, -- sagesse
  0x736169736972, -- saisir
  0x73616c616465, -- salade
  0x73616c697665, -- salive
  0x73616c6f6e, -- salon
  0x73616c756572, -- saluer
  0x73616d656469, -- samedi
  0x73616e6374696f6e, -- sanction
  0x73616e676c696572, -- sanglier
  0x7361726361736d65, -- sarcasme
  0x73617264696e65, -- sardine
  0x73617475726572, -- saturer
  0x7361756772656e75, -- saugrenu
  0x7361756d6f6e, -- saumon
  0x736175746572, -- sauter
  0x73617576616765, -- sauvage
  0x736176616e74, -- savant
  0x7361766f6e6e6572, -- savonner
  0x7363616c70656c, -- scalpel
  0x7363616e64616c65, -- scandale
  0x736365cc816c65cc81726174, -- scélérat
  0x736365cc816e6172696f, -- scénario
  0x73636570747265, -- sceptre
  0x73636865cc816d61, -- schéma
  0x736369656e6365, -- science
  0x7363696e646572, -- scinder
  0x73636f7265, -- score
  0x7363727574696e, -- scrutin
  0x7363756c70746572, -- sculpter
  0x7365cc81616e6365, -- séance
  0x7365cc816361626c65, -- sécable
  0x7365cc8163686572, -- sécher
  0x7365636f756572, -- secouer
  0x7365cc81637265cc81746572, -- sécréter
  0x7365cc816461746966, -- sédatif
  0x7365cc816475697265, -- séduire
  0x736569676e657572, -- seigneur
  0x7365cc816a6f7572, -- séjour
  0x7365cc816c6563746966, -- sélectif
  0x73656d61696e65, -- semaine
  0x73656d626c6572, -- sembler
  0x73656d656e6365, -- semence
  0x7365cc816d696e616c, -- séminal
  0x7365cc816e6174657572, -- sénateur
  0x73656e7369626c65, -- sensible
  0x73656e74656e6365, -- sentence
  0x7365cc817061726572, -- séparer
  0x7365cc817175656e6365, -- séquence
  0x73657265696e, -- serein
  0x73657267656e74, -- sergent
  0x7365cc817269657578, -- sérieux
  0x73657272757265, -- serrure
  0x7365cc8172756d, -- sérum
  0x73657276696365, -- service
  0x7365cc8173616d65, -- sésame
  0x7365cc81766972, -- sévir
  0x73657672616765, -- sevrage
  0x7365787475706c65, -- sextuple
  0x73696465cc8172616c, -- sidéral
  0x736965cc80636c65, -- siècle
  0x736965cc81676572, -- siéger
  0x736966666c6572, -- siffler
  0x7369676c65, -- sigle
  0x7369676e616c, -- signal
  0x73696c656e6365, -- silence
  0x73696c696369756d, -- silicium
  0x73696d706c65, -- simple
  0x73696e6365cc807265, -- sincère
  0x73696e6973747265, -- sinistre
  0x736970686f6e, -- siphon
  0x7369726f70, -- sirop
  0x7369736d69717565, -- sismique
  0x736974756572, -- situer
  0x736b696572, -- skier
  0x736f6369616c, -- social
  0x736f636c65, -- socle
  0x736f6469756d, -- sodium
  0x736f69676e657578, -- soigneux
  0x736f6c646174, -- soldat
  0x736f6c65696c, -- soleil
  0x736f6c6974756465, -- solitude
  0x736f6c75626c65, -- soluble
  0x736f6d627265, -- sombre
  0x736f6d6d65696c, -- sommeil
  0x736f6d6e6f6c6572, -- somnoler
  0x736f6e6465, -- sonde
  0x736f6e67657572, -- songeur
  0x736f6e6e65747465, -- sonnette
  0x736f6e6f7265, -- sonore
  0x736f7263696572, -- sorcier
  0x736f72746972, -- sortir
  0x736f736965, -- sosie
  0x736f7474697365, -- sottise
  0x736f756369657578, -- soucieux
  0x736f7564757265, -- soudure
  0x736f7566666c65, -- souffle
  0x736f756c65766572, -- soulever
  0x736f7570617065, -- soupape
  0x736f75726365, -- source
  0x736f757469726572, -- soutirer
  0x736f7576656e6972, -- souvenir
  0x7370616369657578, -- spacieux
  0x7370617469616c, -- spatial
  0x737065cc816369616c, -- spécial
  0x73706865cc807265, -- sphère
  0x73706972616c, -- spiral
  0x737461626c65, -- stable
  0x73746174696f6e, -- station
  0x737465726e756d, -- sternum
  0x7374696d756c7573, -- stimulus
  0x73746970756c6572, -- stipuler
  0x737472696374, -- strict
  0x7374756469657578, -- studieux
  0x73747570657572, -- stupeur
  0x7374796c69737465, -- styliste
  0x7375626c696d65, -- sublime
  0x7375627374726174, -- substrat
  0x73756274696c, -- subtil
  0x73756276656e6972, -- subvenir
  0x7375636365cc8073, -- succès
  0x7375637265, -- sucre
  0x73756666697865, -- suffixe
  0x7375676765cc81726572, -- suggérer
  0x73756976657572, -- suiveur
  0x73756c66617465, -- sulfate
  0x73757065726265, -- superbe
  0x737570706c696572, -- supplier
  0x73757266616365, -- surface
  0x7375726963617465, -- suricate
  0x7375726d656e6572, -- surmener
  0x7375727072697365, -- surprise
  0x73757273617574, -- sursaut
  0x737572766965, -- survie
  0x73757370656374, -- suspect
  0x73796c6c616265, -- syllabe
  0x73796d626f6c65, -- symbole
  0x73796d65cc8174726965, -- symétrie
  0x73796e61707365, -- synapse
  0x73796e74617865, -- syntaxe
  0x7379737465cc806d65, -- système
  0x7461626163, -- tabac
  0x7461626c696572, -- tablier
  0x74616374696c65, -- tactile
  0x7461696c6c6572, -- tailler
  0x74616c656e74, -- talent
  0x74616c69736d616e, -- talisman
  0x74616c6f6e6e6572, -- talonner
  0x74616d626f7572, -- tambour
  0x74616d69736572, -- tamiser
  0x74616e6769626c65, -- tangible
  0x7461706973, -- tapis
  0x74617175696e6572, -- taquiner
  0x746172646572, -- tarder
  0x7461726966, -- tarif
  0x74617274696e65, -- tartine
  0x7461737365, -- tasse
  0x746174616d69, -- tatami
  0x7461746f75616765, -- tatouage
  0x7461757065, -- taupe
  0x74617572656175, -- taureau
  0x7461786572, -- taxer
  0x7465cc816d6f696e, -- témoin
  0x74656d706f72656c, -- temporel
  0x74656e61696c6c65, -- tenaille
  0x74656e647265, -- tendre
  0x74656e657572, -- teneur
  0x74656e6972, -- tenir
  0x74656e73696f6e, -- tension
  0x7465726d696e6572, -- terminer
  0x7465726e65, -- terne
  0x7465727269626c65, -- terrible
  0x7465cc8174696e65, -- tétine
  0x7465787465, -- texte
  0x746865cc806d65, -- thème
  0x746865cc816f726965, -- théorie
  0x746865cc817261706965, -- thérapie
  0x74686f726178, -- thorax
  0x7469626961, -- tibia
  0x746965cc806465, -- tiède
  0x74696d696465, -- timide
  0x746972656c697265, -- tirelire
  0x7469726f6972, -- tiroir
  0x7469737375, -- tissu
  0x746974616e65, -- titane
  0x7469747265, -- titre
  0x74697475626572, -- tituber
  0x746f626f6767616e, -- toboggan
  0x746f6c65cc8172616e74, -- tolérant
  0x746f6d617465, -- tomate
  0x746f6e69717565, -- tonique
  0x746f6e6e656175, -- tonneau
  0x746f706f6e796d65, -- toponyme
  0x746f72636865, -- torche
  0x746f72647265, -- tordre
  0x746f726e616465, -- tornade
  0x746f7270696c6c65, -- torpille
  0x746f7272656e74, -- torrent
  0x746f727365, -- torse
  0x746f72747565, -- tortue
  0x746f74656d, -- totem
  0x746f7563686572, -- toucher
  0x746f75726e616765, -- tournage
  0x746f7573736572, -- tousser
  0x746f78696e65, -- toxine
  0x7472616374696f6e, -- traction
  0x747261666963, -- trafic
  0x7472616769717565, -- tragique
  0x747261686972, -- trahir
  0x747261696e, -- train
  0x7472616e63686572, -- trancher
  0x7472617661696c, -- travail
  0x747265cc80666c65, -- trèfle
  0x7472656d706572, -- tremper
  0x747265cc81736f72, -- trésor
  0x74726575696c, -- treuil
  0x747269616765, -- triage
  0x74726962756e616c, -- tribunal
  0x747269636f746572, -- tricoter
  0x7472696c6f676965, -- trilogie
  0x7472696f6d706865, -- triomphe
  0x747269706c6572, -- tripler
  0x7472697475726572, -- triturer
  0x7472697669616c, -- trivial
  0x74726f6d626f6e65, -- trombone
  0x74726f6e63, -- tronc
  0x74726f706963616c, -- tropical
  0x74726f7570656175, -- troupeau
  0x7475696c65, -- tuile
  0x74756c697065, -- tulipe
  0x74756d756c7465, -- tumulte
  0x74756e6e656c, -- tunnel
  0x74757262696e65, -- turbine
  0x747574657572, -- tuteur
  0x7475746f796572, -- tutoyer
  0x7475796175, -- tuyau
  0x74796d70616e, -- tympan
  0x747970686f6e, -- typhon
  0x74797069717565, -- typique
  0x747972616e, -- tyran
  0x7562756573717565, -- ubuesque
  0x756c74696d65, -- ultime
  0x756c747261736f6e, -- ultrason
  0x756e616e696d65, -- unanime
  0x756e6966696572, -- unifier
  0x756e696f6e, -- union
  0x756e69717565, -- unique
  0x756e697461697265, -- unitaire
  0x756e6976657273, -- univers
  0x7572616e69756d, -- uranium
  0x75726261696e, -- urbain
  0x7572746963616e74, -- urticant
  0x7573616765, -- usage
  0x7573696e65, -- usine
  0x757375656c, -- usuel
  0x7573757265, -- usure
  0x7574696c65, -- utile
  0x75746f706965, -- utopie
  0x76616361726d65, -- vacarme
  0x76616363696e, -- vaccin
  0x76616761626f6e64, -- vagabond
  0x7661677565, -- vague
  0x7661696c6c616e74, -- vaillant
  0x7661696e637265, -- vaincre
  0x7661697373656175, -- vaisseau
  0x76616c61626c65, -- valable
  0x76616c697365, -- valise
  0x76616c6c6f6e, -- vallon
  0x76616c7665, -- valve
  0x76616d70697265, -- vampire
  0x76616e696c6c65, -- vanille
  0x766170657572, -- vapeur
  0x766172696572, -- varier
  0x766173657578, -- vaseux
  0x76617373616c, -- vassal
  0x7661737465, -- vaste
  0x76656374657572, -- vecteur
  0x76656465747465, -- vedette
  0x7665cc816765cc8174616c, -- végétal
  0x7665cc81686963756c65, -- véhicule
  0x7665696e617264, -- veinard
  0x7665cc816c6f6365, -- véloce
  0x76656e6472656469, -- vendredi
  0x7665cc816e65cc81726572, -- vénérer
  0x76656e676572, -- venger
  0x76656e696d657578, -- venimeux
  0x76656e746f757365, -- ventouse
  0x76657264757265, -- verdure
  0x7665cc8172696e, -- vérin
  0x7665726e6972, -- vernir
  0x766572726f75, -- verrou
  0x766572736572, -- verser
  0x7665727475, -- vertu
  0x766573746f6e, -- veston
  0x7665cc817465cc8172616e, -- vétéran
  0x7665cc817475737465, -- vétuste
  0x766578616e74, -- vexant
  0x7665786572, -- vexer
  0x766961647563, -- viaduc
  0x7669616e6465, -- viande
  0x766963746f697265, -- victoire
  0x766964616e6765, -- vidange
  0x76696465cc816f, -- vidéo
  0x7669676e65747465, -- vignette
  0x76696775657572, -- vigueur
  0x76696c61696e, -- vilain
  0x76696c6c616765, -- village
  0x76696e6169677265, -- vinaigre
  0x76696f6c6f6e, -- violon
  0x76697065cc807265, -- vipère
  0x766972656d656e74, -- virement
  0x76697274756f7365, -- virtuose
  0x7669727573, -- virus
  0x766973616765, -- visage
  0x766973657572, -- viseur
  0x766973696f6e, -- vision
  0x7669737175657578, -- visqueux
  0x76697375656c, -- visuel
  0x766974616c, -- vital
  0x76697465737365, -- vitesse
  0x76697469636f6c65, -- viticole
  0x76697472696e65, -- vitrine
  0x766976616365, -- vivace
  0x7669766970617265, -- vivipare
  0x766f636174696f6e, -- vocation
  0x766f67756572, -- voguer
  0x766f696c65, -- voile
  0x766f6973696e, -- voisin
  0x766f6974757265, -- voiture
  0x766f6c61696c6c65, -- volaille
  0x766f6c63616e, -- volcan
  0x766f6c7469676572, -- voltiger
  0x766f6c756d65, -- volume
  0x766f72616365, -- vorace
  0x766f72746578, -- vortex
  0x766f746572, -- voter
  0x766f756c6f6972, -- vouloir
  0x766f79616765, -- voyage
  0x766f79656c6c65, -- voyelle
  0x7761676f6e, -- wagon
  0x7865cc816e6f6e, -- xénon
  0x7961636874, -- yacht
  0x7a65cc80627265, -- zèbre
  0x7a65cc816e697468, -- zénith
  0x7a65737465, -- zeste
  0x7a6f6f6c6f676965] -- zoologie

/-- wordlists.go:2056-4105 `FrenchWordlist`. -/
def FrenchWordlist : List GoString := unpackWords FrenchWordlistPacked

end Btc
