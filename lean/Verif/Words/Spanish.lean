import Verif.Words.Basic

/-! Generated from /repo/wordlists.go, lines 8209-10258: each word is its UTF-8 bytes read as one
big-endian number (`0x61626c65` is "able"); the word is in the comment. -/

namespace Btc

set_option maxRecDepth 20000 in
/-- wordlists.go:8209-10258 `SpanishWordlist`, in order, packed. -/
def SpanishWordlistPacked : List Nat := [
  0x61cc816261636f, -- ábaco
  0x6162646f6d656e, -- abdomen
  0x6162656a61, -- abeja
  0x6162696572746f, -- abierto
  0x61626f6761646f, -- abogado
  0x61626f6e6f, -- abono
  0x61626f72746f, -- aborto
  0x616272617a6f, -- abrazo
  0x6162726972, -- abrir
  0x616275656c6f, -- abuelo
  0x616275736f, -- abuso
  0x616361626172, -- acabar
  0x61636164656d6961, -- academia
  0x61636365736f, -- acceso
  0x616363696fcc816e, -- acción
  0x616365697465, -- aceite
  0x6163656c6761, -- acelga
  0x6163656e746f, -- acento
  0x61636570746172, -- aceptar
  0x61cc816369646f, -- ácido
  0x61636c61726172, -- aclarar
  0x61636e65cc81, -- acné
  0x61636f676572, -- acoger
  0x61636f736f, -- acoso
  0x61637469766f, -- activo
  0x6163746f, -- acto
  0x61637472697a, -- actriz
  0x616374756172, -- actuar
  0x616375646972, -- acudir
  0x6163756572646f, -- acuerdo
  0x616375736172, -- acusar
  0x61646963746f, -- adicto
  0x61646d69746972, -- admitir
  0x61646f70746172, -- adoptar
  0x61646f726e6f, -- adorno
  0x616475616e61, -- aduana
  0x6164756c746f, -- adulto
  0x6165cc8172656f, -- aéreo
  0x61666563746172, -- afectar
  0x61666963696fcc816e, -- afición
  0x6166696e6172, -- afinar
  0x616669726d6172, -- afirmar
  0x61cc8167696c, -- ágil
  0x616769746172, -- agitar
  0x61676f6e69cc8161, -- agonía
  0x61676f73746f, -- agosto
  0x61676f746172, -- agotar
  0x61677265676172, -- agregar
  0x616772696f, -- agrio
  0x61677561, -- agua
  0x616775646f, -- agudo
  0x61cc816775696c61, -- águila
  0x6167756a61, -- aguja
  0x61686f676f, -- ahogo
  0x61686f72726f, -- ahorro
  0x61697265, -- aire
  0x6169736c6172, -- aislar
  0x616a656472657a, -- ajedrez
  0x616a656e6f, -- ajeno
  0x616a75737465, -- ajuste
  0x616c61637261cc816e, -- alacrán
  0x616c616d627265, -- alambre
  0x616c61726d61, -- alarma
  0x616c6261, -- alba
  0x61cc816c62756d, -- álbum
  0x616c63616c6465, -- alcalde
  0x616c646561, -- aldea
  0x616c65677265, -- alegre
  0x616c656a6172, -- alejar
  0x616c65727461, -- alerta
  0x616c657461, -- aleta
  0x616c66696c6572, -- alfiler
  0x616c6761, -- alga
  0x616c676f646fcc816e, -- algodón
  0x616c6961646f, -- aliado
  0x616c69656e746f, -- aliento
  0x616c6976696f, -- alivio
  0x616c6d61, -- alma
  0x616c6d656a61, -- almeja
  0x616c6d69cc81626172, -- almíbar
  0x616c746172, -- altar
  0x616c74657a61, -- alteza
  0x616c7469766f, -- altivo
  0x616c746f, -- alto
  0x616c74757261, -- altura
  0x616c756d6e6f, -- alumno
  0x616c7a6172, -- alzar
  0x616d61626c65, -- amable
  0x616d616e7465, -- amante
  0x616d61706f6c61, -- amapola
  0x616d6172676f, -- amargo
  0x616d61736172, -- amasar
  0x61cc816d626172, -- ámbar
  0x61cc816d6269746f, -- ámbito
  0x616d656e6f, -- ameno
  0x616d69676f, -- amigo
  0x616d6973746164, -- amistad
  0x616d6f72, -- amor
  0x616d7061726f, -- amparo
  0x616d706c696f, -- amplio
  0x616e63686f, -- ancho
  0x616e6369616e6f, -- anciano
  0x616e636c61, -- ancla
  0x616e646172, -- andar
  0x616e6465cc816e, -- andén
  0x616e656d6961, -- anemia
  0x61cc816e67756c6f, -- ángulo
  0x616e696c6c6f, -- anillo
  0x61cc816e696d6f, -- ánimo
  0x616e69cc8173, -- anís
  0x616e6f746172, -- anotar
  0x616e74656e61, -- antena
  0x616e746967756f, -- antiguo
  0x616e746f6a6f, -- antojo
  0x616e75616c, -- anual
  0x616e756c6172, -- anular
  0x616e756e63696f, -- anuncio
  0x616ecc8361646972, -- añadir
  0x616ecc83656a6f, -- añejo
  0x616ecc836f, -- año
  0x617061676172, -- apagar
  0x6170617261746f, -- aparato
  0x6170657469746f, -- apetito
  0x6170696f, -- apio
  0x61706c69636172, -- aplicar
  0x61706f646f, -- apodo
  0x61706f727465, -- aporte
  0x61706f796f, -- apoyo
  0x617072656e646572, -- aprender
  0x6170726f626172, -- aprobar
  0x61707565737461, -- apuesta
  0x617075726f, -- apuro
  0x617261646f, -- arado
  0x6172616ecc8361, -- araña
  0x61726172, -- arar
  0x61cc8172626974726f, -- árbitro
  0x61cc8172626f6c, -- árbol
  0x6172627573746f, -- arbusto
  0x6172636869766f, -- archivo
  0x6172636f, -- arco
  0x6172646572, -- arder
  0x617264696c6c61, -- ardilla
  0x617264756f, -- arduo
  0x61cc81726561, -- área
  0x61cc817269646f, -- árido
  0x6172696573, -- aries
  0x61726d6f6e69cc8161, -- armonía
  0x61726e65cc8173, -- arnés
  0x61726f6d61, -- aroma
  0x61727061, -- arpa
  0x6172706fcc816e, -- arpón
  0x61727265676c6f, -- arreglo
  0x6172726f7a, -- arroz
  0x617272756761, -- arruga
  0x61727465, -- arte
  0x61727469737461, -- artista
  0x617361, -- asa
  0x617361646f, -- asado
  0x6173616c746f, -- asalto
  0x617363656e736f, -- ascenso
  0x6173656775726172, -- asegurar
  0x6173656f, -- aseo
  0x617365736f72, -- asesor
  0x617369656e746f, -- asiento
  0x6173696c6f, -- asilo
  0x61736973746972, -- asistir
  0x61736e6f, -- asno
  0x61736f6d62726f, -- asombro
  0x61cc81737065726f, -- áspero
  0x617374696c6c61, -- astilla
  0x617374726f, -- astro
  0x61737475746f, -- astuto
  0x6173756d6972, -- asumir
  0x6173756e746f, -- asunto
  0x6174616a6f, -- atajo
  0x617461717565, -- ataque
  0x61746172, -- atar
  0x6174656e746f, -- atento
  0x6174656f, -- ateo
  0x61cc817469636f, -- ático
  0x61746c657461, -- atleta
  0x61cc81746f6d6f, -- átomo
  0x617472616572, -- atraer
  0x6174726f7a, -- atroz
  0x617475cc816e, -- atún
  0x617564617a, -- audaz
  0x617564696f, -- audio
  0x61756765, -- auge
  0x61756c61, -- aula
  0x61756d656e746f, -- aumento
  0x617573656e7465, -- ausente
  0x6175746f72, -- autor
  0x6176616c, -- aval
  0x6176616e6365, -- avance
  0x617661726f, -- avaro
  0x617665, -- ave
  0x6176656c6c616e61, -- avellana
  0x6176656e61, -- avena
  0x617665737472757a, -- avestruz
  0x6176696fcc816e, -- avión
  0x617669736f, -- aviso
  0x61796572, -- ayer
  0x6179756461, -- ayuda
  0x6179756e6f, -- ayuno
  0x617a61667261cc816e, -- azafrán
  0x617a6172, -- azar
  0x617a6f7465, -- azote
  0x617a75cc81636172, -- azúcar
  0x617a75667265, -- azufre
  0x617a756c, -- azul
  0x62616261, -- baba
  0x6261626f72, -- babor
  0x6261636865, -- bache
  0x62616869cc8161, -- bahía
  0x6261696c65, -- baile
  0x62616a6172, -- bajar
  0x62616c616e7a61, -- balanza
  0x62616c636fcc816e, -- balcón
  0x62616c6465, -- balde
  0x62616d6275cc81, -- bambú
  0x62616e636f, -- banco
  0x62616e6461, -- banda
  0x62616ecc836f, -- baño
  0x6261726261, -- barba
  0x626172636f, -- barco
  0x6261726e697a, -- barniz
  0x626172726f, -- barro
  0x6261cc817363756c61, -- báscula
  0x626173746fcc816e, -- bastón
  0x626173757261, -- basura
  0x626174616c6c61, -- batalla
  0x626174657269cc8161, -- batería
  0x6261746972, -- batir
  0x626174757461, -- batuta
  0x626175cc816c, -- baúl
  0x62617a6172, -- bazar
  0x62656265cc81, -- bebé
  0x626562696461, -- bebida
  0x62656c6c6f, -- bello
  0x6265736172, -- besar
  0x6265736f, -- beso
  0x626573746961, -- bestia
  0x626963686f, -- bicho
  0x6269656e, -- bien
  0x62696e676f, -- bingo
  0x626c616e636f, -- blanco
  0x626c6f717565, -- bloque
  0x626c757361, -- blusa
  0x626f61, -- boa
  0x626f62696e61, -- bobina
  0x626f626f, -- bobo
  0x626f6361, -- boca
  0x626f63696e61, -- bocina
  0x626f6461, -- boda
  0x626f64656761, -- bodega
  0x626f696e61, -- boina
  0x626f6c61, -- bola
  0x626f6c65726f, -- bolero
  0x626f6c7361, -- bolsa
  0x626f6d6261, -- bomba
  0x626f6e646164, -- bondad
  0x626f6e69746f, -- bonito
  0x626f6e6f, -- bono
  0x626f6e7361cc8169, -- bonsái
  0x626f726465, -- borde
  0x626f72726172, -- borrar
  0x626f73717565, -- bosque
  0x626f7465, -- bote
  0x626f7469cc816e, -- botín
  0x626fcc8176656461, -- bóveda
  0x626f7a616c, -- bozal
  0x627261766f, -- bravo
  0x6272617a6f, -- brazo
  0x627265636861, -- brecha
  0x6272657665, -- breve
  0x6272696c6c6f, -- brillo
  0x6272696e636f, -- brinco
  0x6272697361, -- brisa
  0x62726f6361, -- broca
  0x62726f6d61, -- broma
  0x62726f6e6365, -- bronce
  0x62726f7465, -- brote
  0x6272756a61, -- bruja
  0x62727573636f, -- brusco
  0x627275746f, -- bruto
  0x627563656f, -- buceo
  0x6275636c65, -- bucle
  0x6275656e6f, -- bueno
  0x62756579, -- buey
  0x627566616e6461, -- bufanda
  0x6275666fcc816e, -- bufón
  0x6275cc81686f, -- búho
  0x627569747265, -- buitre
  0x62756c746f, -- bulto
  0x62757262756a61, -- burbuja
  0x6275726c61, -- burla
  0x627572726f, -- burro
  0x627573636172, -- buscar
  0x627574616361, -- butaca
  0x62757a6fcc816e, -- buzón
  0x636162616c6c6f, -- caballo
  0x636162657a61, -- cabeza
  0x636162696e61, -- cabina
  0x6361627261, -- cabra
  0x636163616f, -- cacao
  0x63616461cc81766572, -- cadáver
  0x636164656e61, -- cadena
  0x63616572, -- caer
  0x63616665cc81, -- café
  0x636169cc816461, -- caída
  0x6361696d61cc816e, -- caimán
  0x63616a61, -- caja
  0x63616a6fcc816e, -- cajón
  0x63616c, -- cal
  0x63616c616d6172, -- calamar
  0x63616c63696f, -- calcio
  0x63616c646f, -- caldo
  0x63616c69646164, -- calidad
  0x63616c6c65, -- calle
  0x63616c6d61, -- calma
  0x63616c6f72, -- calor
  0x63616c766f, -- calvo
  0x63616d61, -- cama
  0x63616d62696f, -- cambio
  0x63616d656c6c6f, -- camello
  0x63616d696e6f, -- camino
  0x63616d706f, -- campo
  0x6361cc816e636572, -- cáncer
  0x63616e64696c, -- candil
  0x63616e656c61, -- canela
  0x63616e6775726f, -- canguro
  0x63616e696361, -- canica
  0x63616e746f, -- canto
  0x63616ecc8361, -- caña
  0x63616ecc836fcc816e, -- cañón
  0x63616f6261, -- caoba
  0x63616f73, -- caos
  0x636170617a, -- capaz
  0x636170697461cc816e, -- capitán
  0x6361706f7465, -- capote
  0x636170746172, -- captar
  0x63617075636861, -- capucha
  0x63617261, -- cara
  0x636172626fcc816e, -- carbón
  0x6361cc817263656c, -- cárcel
  0x636172657461, -- careta
  0x6361726761, -- carga
  0x636172696ecc836f, -- cariño
  0x6361726e65, -- carne
  0x63617270657461, -- carpeta
  0x636172726f, -- carro
  0x6361727461, -- carta
  0x63617361, -- casa
  0x636173636f, -- casco
  0x63617365726f, -- casero
  0x6361737061, -- caspa
  0x636173746f72, -- castor
  0x6361746f726365, -- catorce
  0x6361747265, -- catre
  0x63617564616c, -- caudal
  0x6361757361, -- causa
  0x63617a6f, -- cazo
  0x6365626f6c6c61, -- cebolla
  0x6365646572, -- ceder
  0x636564726f, -- cedro
  0x63656c6461, -- celda
  0x6365cc816c65627265, -- célebre
  0x63656c6f736f, -- celoso
  0x6365cc816c756c61, -- célula
  0x63656d656e746f, -- cemento
  0x63656e697a61, -- ceniza
  0x63656e74726f, -- centro
  0x6365726361, -- cerca
  0x636572646f, -- cerdo
  0x636572657a61, -- cereza
  0x6365726f, -- cero
  0x636572726172, -- cerrar
  0x63657274657a61, -- certeza
  0x6365cc8173706564, -- césped
  0x636574726f, -- cetro
  0x63686163616c, -- chacal
  0x6368616c65636f, -- chaleco
  0x6368616d7075cc81, -- champú
  0x6368616e636c61, -- chancla
  0x6368617061, -- chapa
  0x636861726c61, -- charla
  0x636869636f, -- chico
  0x636869737465, -- chiste
  0x636869766f, -- chivo
  0x63686f717565, -- choque
  0x63686f7a61, -- choza
  0x6368756c657461, -- chuleta
  0x636875706172, -- chupar
  0x6369636c6fcc816e, -- ciclón
  0x636965676f, -- ciego
  0x6369656c6f, -- cielo
  0x6369656e, -- cien
  0x63696572746f, -- cierto
  0x6369667261, -- cifra
  0x6369676172726f, -- cigarro
  0x63696d61, -- cima
  0x63696e636f, -- cinco
  0x63696e65, -- cine
  0x63696e7461, -- cinta
  0x6369707265cc8173, -- ciprés
  0x636972636f, -- circo
  0x63697275656c61, -- ciruela
  0x6369736e65, -- cisne
  0x63697461, -- cita
  0x636975646164, -- ciudad
  0x636c616d6f72, -- clamor
  0x636c616e, -- clan
  0x636c61726f, -- claro
  0x636c617365, -- clase
  0x636c617665, -- clave
  0x636c69656e7465, -- cliente
  0x636c696d61, -- clima
  0x636c69cc816e696361, -- clínica
  0x636f627265, -- cobre
  0x636f6363696fcc816e, -- cocción
  0x636f6368696e6f, -- cochino
  0x636f63696e61, -- cocina
  0x636f636f, -- coco
  0x636fcc816469676f, -- código
  0x636f646f, -- codo
  0x636f667265, -- cofre
  0x636f676572, -- coger
  0x636f68657465, -- cohete
  0x636f6a69cc816e, -- cojín
  0x636f6a6f, -- cojo
  0x636f6c61, -- cola
  0x636f6c636861, -- colcha
  0x636f6c6567696f, -- colegio
  0x636f6c676172, -- colgar
  0x636f6c696e61, -- colina
  0x636f6c6c6172, -- collar
  0x636f6c6d6f, -- colmo
  0x636f6c756d6e61, -- columna
  0x636f6d62617465, -- combate
  0x636f6d6572, -- comer
  0x636f6d696461, -- comida
  0x636fcc816d6f646f, -- cómodo
  0x636f6d707261, -- compra
  0x636f6e6465, -- conde
  0x636f6e656a6f, -- conejo
  0x636f6e6761, -- conga
  0x636f6e6f636572, -- conocer
  0x636f6e73656a6f, -- consejo
  0x636f6e746172, -- contar
  0x636f7061, -- copa
  0x636f706961, -- copia
  0x636f72617a6fcc816e, -- corazón
  0x636f7262617461, -- corbata
  0x636f7263686f, -- corcho
  0x636f72646fcc816e, -- cordón
  0x636f726f6e61, -- corona
  0x636f72726572, -- correr
  0x636f736572, -- coser
  0x636f736d6f73, -- cosmos
  0x636f737461, -- costa
  0x637261cc816e656f, -- cráneo
  0x637261cc81746572, -- cráter
  0x6372656172, -- crear
  0x637265636572, -- crecer
  0x63726569cc81646f, -- creído
  0x6372656d61, -- crema
  0x637269cc8161, -- cría
  0x6372696d656e, -- crimen
  0x637269707461, -- cripta
  0x637269736973, -- crisis
  0x63726f6d6f, -- cromo
  0x63726fcc816e696361, -- crónica
  0x63726f7175657461, -- croqueta
  0x637275646f, -- crudo
  0x6372757a, -- cruz
  0x63756164726f, -- cuadro
  0x63756172746f, -- cuarto
  0x63756174726f, -- cuatro
  0x6375626f, -- cubo
  0x637562726972, -- cubrir
  0x63756368617261, -- cuchara
  0x6375656c6c6f, -- cuello
  0x6375656e746f, -- cuento
  0x637565726461, -- cuerda
  0x637565737461, -- cuesta
  0x6375657661, -- cueva
  0x637569646172, -- cuidar
  0x63756c65627261, -- culebra
  0x63756c7061, -- culpa
  0x63756c746f, -- culto
  0x63756d627265, -- cumbre
  0x63756d706c6972, -- cumplir
  0x63756e61, -- cuna
  0x63756e657461, -- cuneta
  0x63756f7461, -- cuota
  0x6375706fcc816e, -- cupón
  0x6375cc8170756c61, -- cúpula
  0x6375726172, -- curar
  0x637572696f736f, -- curioso
  0x637572736f, -- curso
  0x6375727661, -- curva
  0x6375746973, -- cutis
  0x64616d61, -- dama
  0x64616e7a61, -- danza
  0x646172, -- dar
  0x646172646f, -- dardo
  0x6461cc8174696c, -- dátil
  0x6465626572, -- deber
  0x6465cc8162696c, -- débil
  0x6465cc8163616461, -- década
  0x6465636972, -- decir
  0x6465646f, -- dedo
  0x646566656e7361, -- defensa
  0x646566696e6972, -- definir
  0x64656a6172, -- dejar
  0x64656c6669cc816e, -- delfín
  0x64656c6761646f, -- delgado
  0x64656c69746f, -- delito
  0x64656d6f7261, -- demora
  0x64656e736f, -- denso
  0x64656e74616c, -- dental
  0x6465706f727465, -- deporte
  0x6465726563686f, -- derecho
  0x646572726f7461, -- derrota
  0x6465736179756e6f, -- desayuno
  0x646573656f, -- deseo
  0x64657366696c65, -- desfile
  0x6465736e75646f, -- desnudo
  0x64657374696e6f, -- destino
  0x6465737669cc816f, -- desvío
  0x646574616c6c65, -- detalle
  0x646574656e6572, -- detener
  0x6465756461, -- deuda
  0x6469cc8161, -- día
  0x646961626c6f, -- diablo
  0x64696164656d61, -- diadema
  0x6469616d616e7465, -- diamante
  0x6469616e61, -- diana
  0x64696172696f, -- diario
  0x646962756a6f, -- dibujo
  0x646963746172, -- dictar
  0x6469656e7465, -- diente
  0x6469657461, -- dieta
  0x6469657a, -- diez
  0x64696669cc8163696c, -- difícil
  0x6469676e6f, -- digno
  0x64696c656d61, -- dilema
  0x64696c756972, -- diluir
  0x64696e65726f, -- dinero
  0x6469726563746f, -- directo
  0x64697269676972, -- dirigir
  0x646973636f, -- disco
  0x646973656ecc836f, -- diseño
  0x6469736672617a, -- disfraz
  0x64697661, -- diva
  0x646976696e6f, -- divino
  0x646f626c65, -- doble
  0x646f6365, -- doce
  0x646f6c6f72, -- dolor
  0x646f6d696e676f, -- domingo
  0x646f6e, -- don
  0x646f6e6172, -- donar
  0x646f7261646f, -- dorado
  0x646f726d6972, -- dormir
  0x646f72736f, -- dorso
  0x646f73, -- dos
  0x646f736973, -- dosis
  0x647261676fcc816e, -- dragón
  0x64726f6761, -- droga
  0x6475636861, -- ducha
  0x64756461, -- duda
  0x6475656c6f, -- duelo
  0x6475656ecc836f, -- dueño
  0x64756c6365, -- dulce
  0x6475cc816f, -- dúo
  0x6475717565, -- duque
  0x6475726172, -- durar
  0x647572657a61, -- dureza
  0x6475726f, -- duro
  0x65cc8162616e6f, -- ébano
  0x656272696f, -- ebrio
  0x6563686172, -- echar
  0x65636f, -- eco
  0x65637561646f72, -- ecuador
  0x65646164, -- edad
  0x65646963696fcc816e, -- edición
  0x656469666963696f, -- edificio
  0x656469746f72, -- editor
  0x656475636172, -- educar
  0x65666563746f, -- efecto
  0x65666963617a, -- eficaz
  0x656a65, -- eje
  0x656a656d706c6f, -- ejemplo
  0x656c6566616e7465, -- elefante
  0x656c65676972, -- elegir
  0x656c656d656e746f, -- elemento
  0x656c65766172, -- elevar
  0x656c69707365, -- elipse
  0x65cc816c697465, -- élite
  0x656c69786972, -- elixir
  0x656c6f67696f, -- elogio
  0x656c75646972, -- eludir
  0x656d6275646f, -- embudo
  0x656d69746972, -- emitir
  0x656d6f63696fcc816e, -- emoción
  0x656d70617465, -- empate
  0x656d70656ecc836f, -- empeño
  0x656d706c656f, -- empleo
  0x656d7072657361, -- empresa
  0x656e616e6f, -- enano
  0x656e636172676f, -- encargo
  0x656e6368756665, -- enchufe
  0x656e6369cc8161, -- encía
  0x656e656d69676f, -- enemigo
  0x656e65726f, -- enero
  0x656e6661646f, -- enfado
  0x656e6665726d6f, -- enfermo
  0x656e67616ecc836f, -- engaño
  0x656e69676d61, -- enigma
  0x656e6c616365, -- enlace
  0x656e6f726d65, -- enorme
  0x656e7265646f, -- enredo
  0x656e7361796f, -- ensayo
  0x656e73656ecc836172, -- enseñar
  0x656e7465726f, -- entero
  0x656e74726172, -- entrar
  0x656e76617365, -- envase
  0x656e7669cc816f, -- envío
  0x65cc81706f6361, -- época
  0x65717569706f, -- equipo
  0x6572697a6f, -- erizo
  0x657363616c61, -- escala
  0x657363656e61, -- escena
  0x6573636f6c6172, -- escolar
  0x6573637269626972, -- escribir
  0x65736375646f, -- escudo
  0x6573656e636961, -- esencia
  0x657366657261, -- esfera
  0x6573667565727a6f, -- esfuerzo
  0x657370616461, -- espada
  0x657370656a6f, -- espejo
  0x65737069cc8161, -- espía
  0x6573706f7361, -- esposa
  0x657370756d61, -- espuma
  0x6573717569cc81, -- esquí
  0x6573746172, -- estar
  0x65737465, -- este
  0x657374696c6f, -- estilo
  0x657374756661, -- estufa
  0x6574617061, -- etapa
  0x657465726e6f, -- eterno
  0x65cc8174696361, -- ética
  0x65746e6961, -- etnia
  0x657661646972, -- evadir
  0x6576616c756172, -- evaluar
  0x6576656e746f, -- evento
  0x657669746172, -- evitar
  0x65786163746f, -- exacto
  0x6578616d656e, -- examen
  0x65786365736f, -- exceso
  0x657863757361, -- excusa
  0x6578656e746f, -- exento
  0x657869676972, -- exigir
  0x6578696c696f, -- exilio
  0x65786973746972, -- existir
  0x65cc817869746f, -- éxito
  0x6578706572746f, -- experto
  0x6578706c69636172, -- explicar
  0x6578706f6e6572, -- exponer
  0x65787472656d6f, -- extremo
  0x6661cc816272696361, -- fábrica
  0x6661cc8162756c61, -- fábula
  0x66616368616461, -- fachada
  0x6661cc8163696c, -- fácil
  0x666163746f72, -- factor
  0x6661656e61, -- faena
  0x66616a61, -- faja
  0x66616c6461, -- falda
  0x66616c6c6f, -- fallo
  0x66616c736f, -- falso
  0x66616c746172, -- faltar
  0x66616d61, -- fama
  0x66616d696c6961, -- familia
  0x66616d6f736f, -- famoso
  0x666172616fcc816e, -- faraón
  0x6661726d61636961, -- farmacia
  0x6661726f6c, -- farol
  0x6661727361, -- farsa
  0x66617365, -- fase
  0x666174696761, -- fatiga
  0x6661756e61, -- fauna
  0x6661766f72, -- favor
  0x666178, -- fax
  0x6665627265726f, -- febrero
  0x6665636861, -- fecha
  0x66656c697a, -- feliz
  0x66656f, -- feo
  0x6665726961, -- feria
  0x6665726f7a, -- feroz
  0x6665cc817274696c, -- fértil
  0x666572766f72, -- fervor
  0x6665737469cc816e, -- festín
  0x666961626c65, -- fiable
  0x6669616e7a61, -- fianza
  0x66696172, -- fiar
  0x6669627261, -- fibra
  0x66696363696fcc816e, -- ficción
  0x6669636861, -- ficha
  0x666964656f, -- fideo
  0x666965627265, -- fiebre
  0x6669656c, -- fiel
  0x6669657261, -- fiera
  0x666965737461, -- fiesta
  0x666967757261, -- figura
  0x66696a6172, -- fijar
  0x66696a6f, -- fijo
  0x66696c61, -- fila
  0x66696c657465, -- filete
  0x66696c69616c, -- filial
  0x66696c74726f, -- filtro
  0x66696e, -- fin
  0x66696e6361, -- finca
  0x66696e676972, -- fingir
  0x66696e69746f, -- finito
  0x6669726d61, -- firma
  0x666c61636f, -- flaco
  0x666c61757461, -- flauta
  0x666c65636861, -- flecha
  0x666c6f72, -- flor
  0x666c6f7461, -- flota
  0x666c756972, -- fluir
  0x666c756a6f, -- flujo
  0x666c75cc816f72, -- flúor
  0x666f626961, -- fobia
  0x666f6361, -- foca
  0x666f67617461, -- fogata
  0x666f676fcc816e, -- fogón
  0x666f6c696f, -- folio
  0x666f6c6c65746f, -- folleto
  0x666f6e646f, -- fondo
  0x666f726d61, -- forma
  0x666f72726f, -- forro
  0x666f7274756e61, -- fortuna
  0x666f727a6172, -- forzar
  0x666f7361, -- fosa
  0x666f746f, -- foto
  0x6672616361736f, -- fracaso
  0x667261cc8167696c, -- frágil
  0x6672616e6a61, -- franja
  0x6672617365, -- frase
  0x667261756465, -- fraude
  0x66726569cc8172, -- freír
  0x6672656e6f, -- freno
  0x6672657361, -- fresa
  0x667269cc816f, -- frío
  0x667269746f, -- frito
  0x6672757461, -- fruta
  0x667565676f, -- fuego
  0x6675656e7465, -- fuente
  0x667565727a61, -- fuerza
  0x66756761, -- fuga
  0x66756d6172, -- fumar
  0x66756e63696fcc816e, -- función
  0x66756e6461, -- funda
  0x667572676fcc816e, -- furgón
  0x6675726961, -- furia
  0x667573696c, -- fusil
  0x6675cc8174626f6c, -- fútbol
  0x66757475726f, -- futuro
  0x676163656c61, -- gacela
  0x6761666173, -- gafas
  0x6761697461, -- gaita
  0x67616a6f, -- gajo
  0x67616c61, -- gala
  0x67616c657269cc8161, -- galería
  0x67616c6c6f, -- gallo
  0x67616d6261, -- gamba
  0x67616e6172, -- ganar
  0x67616e63686f, -- gancho
  0x67616e6761, -- ganga
  0x67616e736f, -- ganso
  0x676172616a65, -- garaje
  0x6761727a61, -- garza
  0x6761736f6c696e61, -- gasolina
  0x676173746172, -- gastar
  0x6761746f, -- gato
  0x676176696c61cc816e, -- gavilán
  0x67656d656c6f, -- gemelo
  0x67656d6972, -- gemir
  0x67656e, -- gen
  0x6765cc816e65726f, -- género
  0x67656e696f, -- genio
  0x67656e7465, -- gente
  0x676572616e696f, -- geranio
  0x676572656e7465, -- gerente
  0x6765726d656e, -- germen
  0x676573746f, -- gesto
  0x676967616e7465, -- gigante
  0x67696d6e6173696f, -- gimnasio
  0x6769726172, -- girar
  0x6769726f, -- giro
  0x676c6163696172, -- glaciar
  0x676c6f626f, -- globo
  0x676c6f726961, -- gloria
  0x676f6c, -- gol
  0x676f6c666f, -- golfo
  0x676f6c6f736f, -- goloso
  0x676f6c7065, -- golpe
  0x676f6d61, -- goma
  0x676f72646f, -- gordo
  0x676f72696c61, -- gorila
  0x676f727261, -- gorra
  0x676f7461, -- gota
  0x676f74656f, -- goteo
  0x676f7a6172, -- gozar
  0x6772616461, -- grada
  0x677261cc816669636f, -- gráfico
  0x6772616e6f, -- grano
  0x6772617361, -- grasa
  0x677261746973, -- gratis
  0x6772617665, -- grave
  0x677269657461, -- grieta
  0x6772696c6c6f, -- grillo
  0x6772697065, -- gripe
  0x67726973, -- gris
  0x677269746f, -- grito
  0x67726f736f72, -- grosor
  0x677275cc8161, -- grúa
  0x67727565736f, -- grueso
  0x6772756d6f, -- grumo
  0x677275706f, -- grupo
  0x6775616e7465, -- guante
  0x677561706f, -- guapo
  0x67756172646961, -- guardia
  0x677565727261, -- guerra
  0x677569cc8161, -- guía
  0x6775696ecc836f, -- guiño
  0x6775696f6e, -- guion
  0x677569736f, -- guiso
  0x6775697461727261, -- guitarra
  0x677573616e6f, -- gusano
  0x677573746172, -- gustar
  0x6861626572, -- haber
  0x6861cc8162696c, -- hábil
  0x6861626c6172, -- hablar
  0x6861636572, -- hacer
  0x6861636861, -- hacha
  0x68616461, -- hada
  0x68616c6c6172, -- hallar
  0x68616d616361, -- hamaca
  0x686172696e61, -- harina
  0x68617a, -- haz
  0x68617a616ecc8361, -- hazaña
  0x686562696c6c61, -- hebilla
  0x6865627261, -- hebra
  0x686563686f, -- hecho
  0x68656c61646f, -- helado
  0x68656c696f, -- helio
  0x68656d627261, -- hembra
  0x6865726972, -- herir
  0x6865726d616e6f, -- hermano
  0x6865cc81726f65, -- héroe
  0x686572766972, -- hervir
  0x6869656c6f, -- hielo
  0x68696572726f, -- hierro
  0x6869cc816761646f, -- hígado
  0x68696769656e65, -- higiene
  0x68696a6f, -- hijo
  0x68696d6e6f, -- himno
  0x686973746f726961, -- historia
  0x686f6369636f, -- hocico
  0x686f676172, -- hogar
  0x686f6775657261, -- hoguera
  0x686f6a61, -- hoja
  0x686f6d627265, -- hombre
  0x686f6e676f, -- hongo
  0x686f6e6f72, -- honor
  0x686f6e7261, -- honra
  0x686f7261, -- hora
  0x686f726d696761, -- hormiga
  0x686f726e6f, -- horno
  0x686f7374696c, -- hostil
  0x686f796f, -- hoyo
  0x687565636f, -- hueco
  0x6875656c6761, -- huelga
  0x687565727461, -- huerta
  0x687565736f, -- hueso
  0x687565766f, -- huevo
  0x6875696461, -- huida
  0x68756972, -- huir
  0x68756d616e6f, -- humano
  0x6875cc816d65646f, -- húmedo
  0x68756d696c6465, -- humilde
  0x68756d6f, -- humo
  0x68756e646972, -- hundir
  0x687572616361cc816e, -- huracán
  0x687572746f, -- hurto
  0x69636f6e6f, -- icono
  0x696465616c, -- ideal
  0x6964696f6d61, -- idioma
  0x69cc81646f6c6f, -- ídolo
  0x69676c65736961, -- iglesia
  0x69676c75cc81, -- iglú
  0x696775616c, -- igual
  0x696c6567616c, -- ilegal
  0x696c7573696fcc816e, -- ilusión
  0x696d6167656e, -- imagen
  0x696d61cc816e, -- imán
  0x696d69746172, -- imitar
  0x696d706172, -- impar
  0x696d706572696f, -- imperio
  0x696d706f6e6572, -- imponer
  0x696d70756c736f, -- impulso
  0x696e636170617a, -- incapaz
  0x69cc816e64696365, -- índice
  0x696e65727465, -- inerte
  0x696e6669656c, -- infiel
  0x696e666f726d65, -- informe
  0x696e67656e696f, -- ingenio
  0x696e6963696f, -- inicio
  0x696e6d656e736f, -- inmenso
  0x696e6d756e65, -- inmune
  0x696e6e61746f, -- innato
  0x696e736563746f, -- insecto
  0x696e7374616e7465, -- instante
  0x696e74657265cc8173, -- interés
  0x69cc816e74696d6f, -- íntimo
  0x696e74756972, -- intuir
  0x696e75cc8174696c, -- inútil
  0x696e766965726e6f, -- invierno
  0x697261, -- ira
  0x69726973, -- iris
  0x69726f6e69cc8161, -- ironía
  0x69736c61, -- isla
  0x69736c6f7465, -- islote
  0x6a6162616c69cc81, -- jabalí
  0x6a61626fcc816e, -- jabón
  0x6a616d6fcc816e, -- jamón
  0x6a6172616265, -- jarabe
  0x6a61726469cc816e, -- jardín
  0x6a61727261, -- jarra
  0x6a61756c61, -- jaula
  0x6a617a6d69cc816e, -- jazmín
  0x6a656665, -- jefe
  0x6a6572696e6761, -- jeringa
  0x6a696e657465, -- jinete
  0x6a6f726e616461, -- jornada
  0x6a6f726f6261, -- joroba
  0x6a6f76656e, -- joven
  0x6a6f7961, -- joya
  0x6a7565726761, -- juerga
  0x6a7565766573, -- jueves
  0x6a75657a, -- juez
  0x6a756761646f72, -- jugador
  0x6a75676f, -- jugo
  0x6a756775657465, -- juguete
  0x6a756963696f, -- juicio
  0x6a756e636f, -- junco
  0x6a756e676c61, -- jungla
  0x6a756e696f, -- junio
  0x6a756e746172, -- juntar
  0x6a75cc817069746572, -- júpiter
  0x6a75726172, -- jurar
  0x6a7573746f, -- justo
  0x6a7576656e696c, -- juvenil
  0x6a757a676172, -- juzgar
  0x6b696c6f, -- kilo
  0x6b6f616c61, -- koala
  0x6c6162696f, -- labio
  0x6c6163696f, -- lacio
  0x6c61637261, -- lacra
  0x6c61646f, -- lado
  0x6c6164726fcc816e, -- ladrón
  0x6c61676172746f, -- lagarto
  0x6c61cc816772696d61, -- lágrima
  0x6c6167756e61, -- laguna
  0x6c6169636f, -- laico
  0x6c616d6572, -- lamer
  0x6c61cc816d696e61, -- lámina
  0x6c61cc816d70617261, -- lámpara
  0x6c616e61, -- lana
  0x6c616e636861, -- lancha
  0x6c616e676f737461, -- langosta
  0x6c616e7a61, -- lanza
  0x6c61cc8170697a, -- lápiz
  0x6c6172676f, -- largo
  0x6c61727661, -- larva
  0x6c61cc817374696d61, -- lástima
  0x6c617461, -- lata
  0x6c61cc81746578, -- látex
  0x6c61746972, -- latir
  0x6c617572656c, -- laurel
  0x6c61766172, -- lavar
  0x6c617a6f, -- lazo
  0x6c65616c, -- leal
  0x6c656363696fcc816e, -- lección
  0x6c65636865, -- leche
  0x6c6563746f72, -- lector
  0x6c656572, -- leer
  0x6c6567696fcc816e, -- legión
  0x6c6567756d627265, -- legumbre
  0x6c656a616e6f, -- lejano
  0x6c656e677561, -- lengua
  0x6c656e746f, -- lento
  0x6c656ecc8361, -- leña
  0x6c656fcc816e, -- león
  0x6c656f706172646f, -- leopardo
  0x6c6573696fcc816e, -- lesión
  0x6c6574616c, -- letal
  0x6c65747261, -- letra
  0x6c657665, -- leve
  0x6c6579656e6461, -- leyenda
  0x6c69626572746164, -- libertad
  0x6c6962726f, -- libro
  0x6c69636f72, -- licor
  0x6c69cc81646572, -- líder
  0x6c6964696172, -- lidiar
  0x6c69656e7a6f, -- lienzo
  0x6c696761, -- liga
  0x6c696765726f, -- ligero
  0x6c696d61, -- lima
  0x6c69cc816d697465, -- límite
  0x6c696d6fcc816e, -- limón
  0x6c696d70696f, -- limpio
  0x6c696e6365, -- lince
  0x6c696e646f, -- lindo
  0x6c69cc816e6561, -- línea
  0x6c696e676f7465, -- lingote
  0x6c696e6f, -- lino
  0x6c696e7465726e61, -- linterna
  0x6c69cc81717569646f, -- líquido
  0x6c69736f, -- liso
  0x6c69737461, -- lista
  0x6c6974657261, -- litera
  0x6c6974696f, -- litio
  0x6c6974726f, -- litro
  0x6c6c616761, -- llaga
  0x6c6c616d61, -- llama
  0x6c6c616e746f, -- llanto
  0x6c6c617665, -- llave
  0x6c6c65676172, -- llegar
  0x6c6c656e6172, -- llenar
  0x6c6c65766172, -- llevar
  0x6c6c6f726172, -- llorar
  0x6c6c6f766572, -- llover
  0x6c6c75766961, -- lluvia
  0x6c6f626f, -- lobo
  0x6c6f63696fcc816e, -- loción
  0x6c6f636f, -- loco
  0x6c6f63757261, -- locura
  0x6c6fcc8167696361, -- lógica
  0x6c6f67726f, -- logro
  0x6c6f6d6272697a, -- lombriz
  0x6c6f6d6f, -- lomo
  0x6c6f6e6a61, -- lonja
  0x6c6f7465, -- lote
  0x6c75636861, -- lucha
  0x6c75636972, -- lucir
  0x6c75676172, -- lugar
  0x6c756a6f, -- lujo
  0x6c756e61, -- luna
  0x6c756e6573, -- lunes
  0x6c757061, -- lupa
  0x6c757374726f, -- lustro
  0x6c75746f, -- luto
  0x6c757a, -- luz
  0x6d6163657461, -- maceta
  0x6d6163686f, -- macho
  0x6d6164657261, -- madera
  0x6d61647265, -- madre
  0x6d616475726f, -- maduro
  0x6d61657374726f, -- maestro
  0x6d61666961, -- mafia
  0x6d61676961, -- magia
  0x6d61676f, -- mago
  0x6d6169cc817a, -- maíz
  0x6d616c646164, -- maldad
  0x6d616c657461, -- maleta
  0x6d616c6c61, -- malla
  0x6d616c6f, -- malo
  0x6d616d61cc81, -- mamá
  0x6d616d626f, -- mambo
  0x6d616d7574, -- mamut
  0x6d616e636f, -- manco
  0x6d616e646f, -- mando
  0x6d616e656a6172, -- manejar
  0x6d616e6761, -- manga
  0x6d616e69717569cc81, -- maniquí
  0x6d616e6a6172, -- manjar
  0x6d616e6f, -- mano
  0x6d616e736f, -- manso
  0x6d616e7461, -- manta
  0x6d616ecc83616e61, -- mañana
  0x6d617061, -- mapa
  0x6d61cc817175696e61, -- máquina
  0x6d6172, -- mar
  0x6d6172636f, -- marco
  0x6d61726561, -- marea
  0x6d617266696c, -- marfil
  0x6d617267656e, -- margen
  0x6d617269646f, -- marido
  0x6d61cc81726d6f6c, -- mármol
  0x6d6172726fcc816e, -- marrón
  0x6d6172746573, -- martes
  0x6d61727a6f, -- marzo
  0x6d617361, -- masa
  0x6d61cc817363617261, -- máscara
  0x6d617369766f, -- masivo
  0x6d61746172, -- matar
  0x6d617465726961, -- materia
  0x6d6174697a, -- matiz
  0x6d617472697a, -- matriz
  0x6d61cc8178696d6f, -- máximo
  0x6d61796f72, -- mayor
  0x6d617a6f726361, -- mazorca
  0x6d65636861, -- mecha
  0x6d6564616c6c61, -- medalla
  0x6d6564696f, -- medio
  0x6d65cc8164756c61, -- médula
  0x6d656a696c6c61, -- mejilla
  0x6d656a6f72, -- mejor
  0x6d656c656e61, -- melena
  0x6d656c6fcc816e, -- melón
  0x6d656d6f726961, -- memoria
  0x6d656e6f72, -- menor
  0x6d656e73616a65, -- mensaje
  0x6d656e7465, -- mente
  0x6d656e75cc81, -- menú
  0x6d65726361646f, -- mercado
  0x6d6572656e677565, -- merengue
  0x6d65cc817269746f, -- mérito
  0x6d6573, -- mes
  0x6d65736fcc816e, -- mesón
  0x6d657461, -- meta
  0x6d65746572, -- meter
  0x6d65cc81746f646f, -- método
  0x6d6574726f, -- metro
  0x6d657a636c61, -- mezcla
  0x6d6965646f, -- miedo
  0x6d69656c, -- miel
  0x6d69656d62726f, -- miembro
  0x6d696761, -- miga
  0x6d696c, -- mil
  0x6d696c6167726f, -- milagro
  0x6d696c69746172, -- militar
  0x6d696c6c6fcc816e, -- millón
  0x6d696d6f, -- mimo
  0x6d696e61, -- mina
  0x6d696e65726f, -- minero
  0x6d69cc816e696d6f, -- mínimo
  0x6d696e75746f, -- minuto
  0x6d696f7065, -- miope
  0x6d69726172, -- mirar
  0x6d697361, -- misa
  0x6d697365726961, -- miseria
  0x6d6973696c, -- misil
  0x6d69736d6f, -- mismo
  0x6d69746164, -- mitad
  0x6d69746f, -- mito
  0x6d6f6368696c61, -- mochila
  0x6d6f63696fcc816e, -- moción
  0x6d6f6461, -- moda
  0x6d6f64656c6f, -- modelo
  0x6d6f686f, -- moho
  0x6d6f6a6172, -- mojar
  0x6d6f6c6465, -- molde
  0x6d6f6c6572, -- moler
  0x6d6f6c696e6f, -- molino
  0x6d6f6d656e746f, -- momento
  0x6d6f6d6961, -- momia
  0x6d6f6e61726361, -- monarca
  0x6d6f6e656461, -- moneda
  0x6d6f6e6a61, -- monja
  0x6d6f6e746f, -- monto
  0x6d6f6ecc836f, -- moño
  0x6d6f72616461, -- morada
  0x6d6f72646572, -- morder
  0x6d6f72656e6f, -- moreno
  0x6d6f726972, -- morir
  0x6d6f72726f, -- morro
  0x6d6f727361, -- morsa
  0x6d6f7274616c, -- mortal
  0x6d6f736361, -- mosca
  0x6d6f7374726172, -- mostrar
  0x6d6f7469766f, -- motivo
  0x6d6f766572, -- mover
  0x6d6fcc8176696c, -- móvil
  0x6d6f7a6f, -- mozo
  0x6d7563686f, -- mucho
  0x6d75646172, -- mudar
  0x6d7565626c65, -- mueble
  0x6d75656c61, -- muela
  0x6d7565727465, -- muerte
  0x6d756573747261, -- muestra
  0x6d75677265, -- mugre
  0x6d756a6572, -- mujer
  0x6d756c61, -- mula
  0x6d756c657461, -- muleta
  0x6d756c7461, -- multa
  0x6d756e646f, -- mundo
  0x6d756ecc83656361, -- muñeca
  0x6d7572616c, -- mural
  0x6d75726f, -- muro
  0x6d75cc817363756c6f, -- músculo
  0x6d7573656f, -- museo
  0x6d7573676f, -- musgo
  0x6d75cc8173696361, -- música
  0x6d75736c6f, -- muslo
  0x6e61cc81636172, -- nácar
  0x6e6163696fcc816e, -- nación
  0x6e61646172, -- nadar
  0x6e61697065, -- naipe
  0x6e6172616e6a61, -- naranja
  0x6e6172697a, -- nariz
  0x6e6172726172, -- narrar
  0x6e6173616c, -- nasal
  0x6e6174616c, -- natal
  0x6e617469766f, -- nativo
  0x6e61747572616c, -- natural
  0x6e61cc8175736561, -- náusea
  0x6e6176616c, -- naval
  0x6e617665, -- nave
  0x6e617669646164, -- navidad
  0x6e6563696f, -- necio
  0x6e65cc8163746172, -- néctar
  0x6e65676172, -- negar
  0x6e65676f63696f, -- negocio
  0x6e6567726f, -- negro
  0x6e656fcc816e, -- neón
  0x6e657276696f, -- nervio
  0x6e65746f, -- neto
  0x6e657574726f, -- neutro
  0x6e65766172, -- nevar
  0x6e6576657261, -- nevera
  0x6e6963686f, -- nicho
  0x6e69646f, -- nido
  0x6e6965626c61, -- niebla
  0x6e6965746f, -- nieto
  0x6e696ecc83657a, -- niñez
  0x6e696ecc836f, -- niño
  0x6e69cc817469646f, -- nítido
  0x6e6976656c, -- nivel
  0x6e6f626c657a61, -- nobleza
  0x6e6f636865, -- noche
  0x6e6fcc816d696e61, -- nómina
  0x6e6f726961, -- noria
  0x6e6f726d61, -- norma
  0x6e6f727465, -- norte
  0x6e6f7461, -- nota
  0x6e6f7469636961, -- noticia
  0x6e6f7661746f, -- novato
  0x6e6f76656c61, -- novela
  0x6e6f76696f, -- novio
  0x6e756265, -- nube
  0x6e756361, -- nuca
  0x6e75cc81636c656f, -- núcleo
  0x6e7564696c6c6f, -- nudillo
  0x6e75646f, -- nudo
  0x6e75657261, -- nuera
  0x6e75657665, -- nueve
  0x6e75657a, -- nuez
  0x6e756c6f, -- nulo
  0x6e75cc816d65726f, -- número
  0x6e7574726961, -- nutria
  0x6f61736973, -- oasis
  0x6f6265736f, -- obeso
  0x6f626973706f, -- obispo
  0x6f626a65746f, -- objeto
  0x6f627261, -- obra
  0x6f627265726f, -- obrero
  0x6f62736572766172, -- observar
  0x6f6274656e6572, -- obtener
  0x6f6276696f, -- obvio
  0x6f6361, -- oca
  0x6f6361736f, -- ocaso
  0x6f6365cc81616e6f, -- océano
  0x6f6368656e7461, -- ochenta
  0x6f63686f, -- ocho
  0x6f63696f, -- ocio
  0x6f637265, -- ocre
  0x6f637461766f, -- octavo
  0x6f637475627265, -- octubre
  0x6f63756c746f, -- oculto
  0x6f6375706172, -- ocupar
  0x6f637572726972, -- ocurrir
  0x6f64696172, -- odiar
  0x6f64696f, -- odio
  0x6f6469736561, -- odisea
  0x6f65737465, -- oeste
  0x6f66656e7361, -- ofensa
  0x6f6665727461, -- oferta
  0x6f666963696f, -- oficio
  0x6f667265636572, -- ofrecer
  0x6f67726f, -- ogro
  0x6f69cc81646f, -- oído
  0x6f69cc8172, -- oír
  0x6f6a6f, -- ojo
  0x6f6c61, -- ola
  0x6f6c65616461, -- oleada
  0x6f6c6661746f, -- olfato
  0x6f6c69766f, -- olivo
  0x6f6c6c61, -- olla
  0x6f6c6d6f, -- olmo
  0x6f6c6f72, -- olor
  0x6f6c7669646f, -- olvido
  0x6f6d626c69676f, -- ombligo
  0x6f6e6461, -- onda
  0x6f6e7a61, -- onza
  0x6f7061636f, -- opaco
  0x6f7063696fcc816e, -- opción
  0x6fcc8170657261, -- ópera
  0x6f70696e6172, -- opinar
  0x6f706f6e6572, -- oponer
  0x6f70746172, -- optar
  0x6fcc817074696361, -- óptica
  0x6f70756573746f, -- opuesto
  0x6f726163696fcc816e, -- oración
  0x6f7261646f72, -- orador
  0x6f72616c, -- oral
  0x6fcc817262697461, -- órbita
  0x6f726361, -- orca
  0x6f7264656e, -- orden
  0x6f72656a61, -- oreja
  0x6fcc817267616e6f, -- órgano
  0x6f726769cc8161, -- orgía
  0x6f7267756c6c6f, -- orgullo
  0x6f7269656e7465, -- oriente
  0x6f726967656e, -- origen
  0x6f72696c6c61, -- orilla
  0x6f726f, -- oro
  0x6f72717565737461, -- orquesta
  0x6f72756761, -- oruga
  0x6f73616469cc8161, -- osadía
  0x6f736375726f, -- oscuro
  0x6f73657a6e6f, -- osezno
  0x6f736f, -- oso
  0x6f73747261, -- ostra
  0x6f746f6ecc836f, -- otoño
  0x6f74726f, -- otro
  0x6f76656a61, -- oveja
  0x6fcc8176756c6f, -- óvulo
  0x6fcc817869646f, -- óxido
  0x6f7869cc8167656e6f, -- oxígeno
  0x6f79656e7465, -- oyente
  0x6f7a6f6e6f, -- ozono
  0x706163746f, -- pacto
  0x7061647265, -- padre
  0x7061656c6c61, -- paella
  0x7061cc8167696e61, -- página
  0x7061676f, -- pago
  0x706169cc8173, -- país
  0x7061cc816a61726f, -- pájaro
  0x70616c61627261, -- palabra
  0x70616c636f, -- palco
  0x70616c657461, -- paleta
  0x7061cc816c69646f, -- pálido
  0x70616c6d61, -- palma
  0x70616c6f6d61, -- paloma
  0x70616c706172, -- palpar
  0x70616e, -- pan
  0x70616e616c, -- panal
  0x7061cc816e69636f, -- pánico
  0x70616e74657261, -- pantera
  0x70616ecc8375656c6f, -- pañuelo
  0x70617061cc81, -- papá
  0x706170656c, -- papel
  0x706170696c6c61, -- papilla
  0x70617175657465, -- paquete
  0x7061726172, -- parar
  0x70617263656c61, -- parcela
  0x7061726564, -- pared
  0x7061726972, -- parir
  0x7061726f, -- paro
  0x7061cc81727061646f, -- párpado
  0x706172717565, -- parque
  0x7061cc81727261666f, -- párrafo
  0x7061727465, -- parte
  0x7061736172, -- pasar
  0x706173656f, -- paseo
  0x706173696fcc816e, -- pasión
  0x7061736f, -- paso
  0x7061737461, -- pasta
  0x70617461, -- pata
  0x706174696f, -- patio
  0x706174726961, -- patria
  0x7061757361, -- pausa
  0x7061757461, -- pauta
  0x7061766f, -- pavo
  0x70617961736f, -- payaso
  0x706561746fcc816e, -- peatón
  0x70656361646f, -- pecado
  0x706563657261, -- pecera
  0x706563686f, -- pecho
  0x706564616c, -- pedal
  0x7065646972, -- pedir
  0x7065676172, -- pegar
  0x7065696e65, -- peine
  0x70656c6172, -- pelar
  0x70656c64616ecc836f, -- peldaño
  0x70656c6561, -- pelea
  0x70656c6967726f, -- peligro
  0x70656c6c656a6f, -- pellejo
  0x70656c6f, -- pelo
  0x70656c756361, -- peluca
  0x70656e61, -- pena
  0x70656e736172, -- pensar
  0x70656ecc836fcc816e, -- peñón
  0x70656fcc816e, -- peón
  0x70656f72, -- peor
  0x706570696e6f, -- pepino
  0x70657175656ecc836f, -- pequeño
  0x70657261, -- pera
  0x706572636861, -- percha
  0x706572646572, -- perder
  0x706572657a61, -- pereza
  0x70657266696c, -- perfil
  0x70657269636f, -- perico
  0x7065726c61, -- perla
  0x7065726d69736f, -- permiso
  0x706572726f, -- perro
  0x706572736f6e61, -- persona
  0x70657361, -- pesa
  0x7065736361, -- pesca
  0x7065cc8173696d6f, -- pésimo
  0x70657374616ecc8361, -- pestaña
  0x7065cc8174616c6f, -- pétalo
  0x706574726fcc816c656f, -- petróleo
  0x70657a, -- pez
  0x70657a756ecc8361, -- pezuña
  0x7069636172, -- picar
  0x706963686fcc816e, -- pichón
  0x706965, -- pie
  0x706965647261, -- piedra
  0x706965726e61, -- pierna
  0x7069657a61, -- pieza
  0x70696a616d61, -- pijama
  0x70696c6172, -- pilar
  0x70696c6f746f, -- piloto
  0x70696d69656e7461, -- pimienta
  0x70696e6f, -- pino
  0x70696e746f72, -- pintor
  0x70696e7a61, -- pinza
  0x70696ecc8361, -- piña
  0x70696f6a6f, -- piojo
  0x70697061, -- pipa
  0x706972617461, -- pirata
  0x7069736172, -- pisar
  0x70697363696e61, -- piscina
  0x7069736f, -- piso
  0x7069737461, -- pista
  0x7069746fcc816e, -- pitón
  0x70697a6361, -- pizca
  0x706c616361, -- placa
  0x706c616e, -- plan
  0x706c617461, -- plata
  0x706c617961, -- playa
  0x706c617a61, -- plaza
  0x706c6569746f, -- pleito
  0x706c656e6f, -- pleno
  0x706c6f6d6f, -- plomo
  0x706c756d61, -- pluma
  0x706c7572616c, -- plural
  0x706f627265, -- pobre
  0x706f636f, -- poco
  0x706f646572, -- poder
  0x706f64696f, -- podio
  0x706f656d61, -- poema
  0x706f657369cc8161, -- poesía
  0x706f657461, -- poeta
  0x706f6c656e, -- polen
  0x706f6c696369cc8161, -- policía
  0x706f6c6c6f, -- pollo
  0x706f6c766f, -- polvo
  0x706f6d616461, -- pomada
  0x706f6d656c6f, -- pomelo
  0x706f6d6f, -- pomo
  0x706f6d7061, -- pompa
  0x706f6e6572, -- poner
  0x706f7263696fcc816e, -- porción
  0x706f7274616c, -- portal
  0x706f73616461, -- posada
  0x706f73656572, -- poseer
  0x706f7369626c65, -- posible
  0x706f737465, -- poste
  0x706f74656e636961, -- potencia
  0x706f74726f, -- potro
  0x706f7a6f, -- pozo
  0x707261646f, -- prado
  0x707265636f7a, -- precoz
  0x70726567756e7461, -- pregunta
  0x7072656d696f, -- premio
  0x7072656e7361, -- prensa
  0x707265736f, -- preso
  0x70726576696f, -- previo
  0x7072696d6f, -- primo
  0x707269cc816e63697065, -- príncipe
  0x70726973696fcc816e, -- prisión
  0x707269766172, -- privar
  0x70726f61, -- proa
  0x70726f626172, -- probar
  0x70726f6365736f, -- proceso
  0x70726f647563746f, -- producto
  0x70726f657a61, -- proeza
  0x70726f6665736f72, -- profesor
  0x70726f6772616d61, -- programa
  0x70726f6c65, -- prole
  0x70726f6d657361, -- promesa
  0x70726f6e746f, -- pronto
  0x70726f70696f, -- propio
  0x70726fcc8178696d6f, -- próximo
  0x707275656261, -- prueba
  0x7075cc81626c69636f, -- público
  0x7075636865726f, -- puchero
  0x7075646f72, -- pudor
  0x707565626c6f, -- pueblo
  0x707565727461, -- puerta
  0x70756573746f, -- puesto
  0x70756c6761, -- pulga
  0x70756c6972, -- pulir
  0x70756c6d6fcc816e, -- pulmón
  0x70756c706f, -- pulpo
  0x70756c736f, -- pulso
  0x70756d61, -- puma
  0x70756e746f, -- punto
  0x70756ecc83616c, -- puñal
  0x70756ecc836f, -- puño
  0x70757061, -- pupa
  0x707570696c61, -- pupila
  0x70757265cc81, -- puré
  0x717565646172, -- quedar
  0x7175656a61, -- queja
  0x7175656d6172, -- quemar
  0x717565726572, -- querer
  0x717565736f, -- queso
  0x71756965746f, -- quieto
  0x717569cc816d696361, -- química
  0x7175696e6365, -- quince
  0x717569746172, -- quitar
  0x7261cc8162616e6f, -- rábano
  0x7261626961, -- rabia
  0x7261626f, -- rabo
  0x726163696fcc816e, -- ración
  0x7261646963616c, -- radical
  0x726169cc817a, -- raíz
  0x72616d61, -- rama
  0x72616d7061, -- rampa
  0x72616e63686f, -- rancho
  0x72616e676f, -- rango
  0x726170617a, -- rapaz
  0x7261cc817069646f, -- rápido
  0x726170746f, -- rapto
  0x726173676f, -- rasgo
  0x7261737061, -- raspa
  0x7261746f, -- rato
  0x7261796f, -- rayo
  0x72617a61, -- raza
  0x72617a6fcc816e, -- razón
  0x7265616363696fcc816e, -- reacción
  0x7265616c69646164, -- realidad
  0x726562616ecc836f, -- rebaño
  0x7265626f7465, -- rebote
  0x726563616572, -- recaer
  0x726563657461, -- receta
  0x72656368617a6f, -- rechazo
  0x7265636f676572, -- recoger
  0x72656372656f, -- recreo
  0x726563746f, -- recto
  0x7265637572736f, -- recurso
  0x726564, -- red
  0x7265646f6e646f, -- redondo
  0x72656475636972, -- reducir
  0x7265666c656a6f, -- reflejo
  0x7265666f726d61, -- reforma
  0x7265667261cc816e, -- refrán
  0x7265667567696f, -- refugio
  0x726567616c6f, -- regalo
  0x7265676972, -- regir
  0x7265676c61, -- regla
  0x7265677265736f, -- regreso
  0x72656865cc816e, -- rehén
  0x7265696e6f, -- reino
  0x726569cc8172, -- reír
  0x72656a61, -- reja
  0x72656c61746f, -- relato
  0x72656c65766f, -- relevo
  0x72656c69657665, -- relieve
  0x72656c6c656e6f, -- relleno
  0x72656c6f6a, -- reloj
  0x72656d6172, -- remar
  0x72656d6564696f, -- remedio
  0x72656d6f, -- remo
  0x72656e636f72, -- rencor
  0x72656e646972, -- rendir
  0x72656e7461, -- renta
  0x7265706172746f, -- reparto
  0x72657065746972, -- repetir
  0x7265706f736f, -- reposo
  0x72657074696c, -- reptil
  0x726573, -- res
  0x72657363617465, -- rescate
  0x726573696e61, -- resina
  0x7265737065746f, -- respeto
  0x726573746f, -- resto
  0x726573756d656e, -- resumen
  0x72657469726f, -- retiro
  0x7265746f726e6f, -- retorno
  0x7265747261746f, -- retrato
  0x7265756e6972, -- reunir
  0x72657665cc8173, -- revés
  0x72657669737461, -- revista
  0x726579, -- rey
  0x72657a6172, -- rezar
  0x7269636f, -- rico
  0x726965676f, -- riego
  0x7269656e6461, -- rienda
  0x72696573676f, -- riesgo
  0x72696661, -- rifa
  0x7269cc816769646f, -- rígido
  0x7269676f72, -- rigor
  0x72696e636fcc816e, -- rincón
  0x72696ecc836fcc816e, -- riñón
  0x7269cc816f, -- río
  0x72697175657a61, -- riqueza
  0x72697361, -- risa
  0x7269746d6f, -- ritmo
  0x7269746f, -- rito
  0x72697a6f, -- rizo
  0x726f626c65, -- roble
  0x726f6365, -- roce
  0x726f63696172, -- rociar
  0x726f646172, -- rodar
  0x726f64656f, -- rodeo
  0x726f64696c6c61, -- rodilla
  0x726f6572, -- roer
  0x726f6a697a6f, -- rojizo
  0x726f6a6f, -- rojo
  0x726f6d65726f, -- romero
  0x726f6d706572, -- romper
  0x726f6e, -- ron
  0x726f6e636f, -- ronco
  0x726f6e6461, -- ronda
  0x726f7061, -- ropa
  0x726f7065726f, -- ropero
  0x726f7361, -- rosa
  0x726f736361, -- rosca
  0x726f7374726f, -- rostro
  0x726f746172, -- rotar
  0x72756269cc81, -- rubí
  0x7275626f72, -- rubor
  0x7275646f, -- rudo
  0x7275656461, -- rueda
  0x7275676972, -- rugir
  0x727569646f, -- ruido
  0x7275696e61, -- ruina
  0x72756c657461, -- ruleta
  0x72756c6f, -- rulo
  0x72756d626f, -- rumbo
  0x72756d6f72, -- rumor
  0x72757074757261, -- ruptura
  0x72757461, -- ruta
  0x727574696e61, -- rutina
  0x7361cc816261646f, -- sábado
  0x7361626572, -- saber
  0x736162696f, -- sabio
  0x7361626c65, -- sable
  0x7361636172, -- sacar
  0x736167617a, -- sagaz
  0x7361677261646f, -- sagrado
  0x73616c61, -- sala
  0x73616c646f, -- saldo
  0x73616c65726f, -- salero
  0x73616c6972, -- salir
  0x73616c6d6fcc816e, -- salmón
  0x73616c6fcc816e, -- salón
  0x73616c7361, -- salsa
  0x73616c746f, -- salto
  0x73616c7564, -- salud
  0x73616c766172, -- salvar
  0x73616d6261, -- samba
  0x73616e63696fcc816e, -- sanción
  0x73616e6469cc8161, -- sandía
  0x73616e656172, -- sanear
  0x73616e677265, -- sangre
  0x73616e69646164, -- sanidad
  0x73616e6f, -- sano
  0x73616e746f, -- santo
  0x7361706f, -- sapo
  0x7361717565, -- saque
  0x73617264696e61, -- sardina
  0x7361727465cc816e, -- sartén
  0x736173747265, -- sastre
  0x73617461cc816e, -- satán
  0x7361756e61, -- sauna
  0x7361786f666fcc816e, -- saxofón
  0x73656363696fcc816e, -- sección
  0x7365636f, -- seco
  0x7365637265746f, -- secreto
  0x7365637461, -- secta
  0x736564, -- sed
  0x736567756972, -- seguir
  0x73656973, -- seis
  0x73656c6c6f, -- sello
  0x73656c7661, -- selva
  0x73656d616e61, -- semana
  0x73656d696c6c61, -- semilla
  0x73656e6461, -- senda
  0x73656e736f72, -- sensor
  0x73656ecc83616c, -- señal
  0x73656ecc836f72, -- señor
  0x73657061726172, -- separar
  0x7365706961, -- sepia
  0x7365717569cc8161, -- sequía
  0x736572, -- ser
  0x7365726965, -- serie
  0x7365726d6fcc816e, -- sermón
  0x736572766972, -- servir
  0x736573656e7461, -- sesenta
  0x736573696fcc816e, -- sesión
  0x73657461, -- seta
  0x736574656e7461, -- setenta
  0x73657665726f, -- severo
  0x7365786f, -- sexo
  0x736578746f, -- sexto
  0x7369647261, -- sidra
  0x736965737461, -- siesta
  0x7369657465, -- siete
  0x7369676c6f, -- siglo
  0x7369676e6f, -- signo
  0x7369cc816c616261, -- sílaba
  0x73696c626172, -- silbar
  0x73696c656e63696f, -- silencio
  0x73696c6c61, -- silla
  0x7369cc816d626f6c6f, -- símbolo
  0x73696d696f, -- simio
  0x736972656e61, -- sirena
  0x73697374656d61, -- sistema
  0x736974696f, -- sitio
  0x736974756172, -- situar
  0x736f627265, -- sobre
  0x736f63696f, -- socio
  0x736f64696f, -- sodio
  0x736f6c, -- sol
  0x736f6c617061, -- solapa
  0x736f6c6461646f, -- soldado
  0x736f6c65646164, -- soledad
  0x736fcc816c69646f, -- sólido
  0x736f6c746172, -- soltar
  0x736f6c7563696fcc816e, -- solución
  0x736f6d627261, -- sombra
  0x736f6e64656f, -- sondeo
  0x736f6e69646f, -- sonido
  0x736f6e6f726f, -- sonoro
  0x736f6e72697361, -- sonrisa
  0x736f7061, -- sopa
  0x736f706c6172, -- soplar
  0x736f706f727465, -- soporte
  0x736f72646f, -- sordo
  0x736f727072657361, -- sorpresa
  0x736f7274656f, -- sorteo
  0x736f737465cc816e, -- sostén
  0x736fcc8174616e6f, -- sótano
  0x7375617665, -- suave
  0x7375626972, -- subir
  0x73756365736f, -- suceso
  0x7375646f72, -- sudor
  0x737565677261, -- suegra
  0x7375656c6f, -- suelo
  0x7375656ecc836f, -- sueño
  0x737565727465, -- suerte
  0x737566726972, -- sufrir
  0x73756a65746f, -- sujeto
  0x73756c7461cc816e, -- sultán
  0x73756d6172, -- sumar
  0x73757065726172, -- superar
  0x7375706c6972, -- suplir
  0x7375706f6e6572, -- suponer
  0x73757072656d6f, -- supremo
  0x737572, -- sur
  0x737572636f, -- surco
  0x737572656ecc836f, -- sureño
  0x737572676972, -- surgir
  0x737573746f, -- susto
  0x737574696c, -- sutil
  0x74616261636f, -- tabaco
  0x74616269717565, -- tabique
  0x7461626c61, -- tabla
  0x74616275cc81, -- tabú
  0x7461636f, -- taco
  0x746163746f, -- tacto
  0x74616a6f, -- tajo
  0x74616c6172, -- talar
  0x74616c636f, -- talco
  0x74616c656e746f, -- talento
  0x74616c6c61, -- talla
  0x74616c6fcc816e, -- talón
  0x74616d616ecc836f, -- tamaño
  0x74616d626f72, -- tambor
  0x74616e676f, -- tango
  0x74616e717565, -- tanque
  0x74617061, -- tapa
  0x746170657465, -- tapete
  0x7461706961, -- tapia
  0x7461706fcc816e, -- tapón
  0x74617175696c6c61, -- taquilla
  0x7461726465, -- tarde
  0x7461726561, -- tarea
  0x746172696661, -- tarifa
  0x7461726a657461, -- tarjeta
  0x7461726f74, -- tarot
  0x746172726f, -- tarro
  0x7461727461, -- tarta
  0x74617475616a65, -- tatuaje
  0x746175726f, -- tauro
  0x74617a61, -- taza
  0x74617a6fcc816e, -- tazón
  0x74656174726f, -- teatro
  0x746563686f, -- techo
  0x7465636c61, -- tecla
  0x7465cc81636e696361, -- técnica
  0x74656a61646f, -- tejado
  0x74656a6572, -- tejer
  0x74656a69646f, -- tejido
  0x74656c61, -- tela
  0x74656c65cc81666f6e6f, -- teléfono
  0x74656d61, -- tema
  0x74656d6f72, -- temor
  0x74656d706c6f, -- templo
  0x74656e617a, -- tenaz
  0x74656e646572, -- tender
  0x74656e6572, -- tener
  0x74656e6973, -- tenis
  0x74656e736f, -- tenso
  0x74656f7269cc8161, -- teoría
  0x74657261706961, -- terapia
  0x746572636f, -- terco
  0x7465cc81726d696e6f, -- término
  0x7465726e757261, -- ternura
  0x746572726f72, -- terror
  0x7465736973, -- tesis
  0x7465736f726f, -- tesoro
  0x7465737469676f, -- testigo
  0x746574657261, -- tetera
  0x746578746f, -- texto
  0x74657a, -- tez
  0x746962696f, -- tibio
  0x74696275726fcc816e, -- tiburón
  0x7469656d706f, -- tiempo
  0x7469656e6461, -- tienda
  0x746965727261, -- tierra
  0x746965736f, -- tieso
  0x7469677265, -- tigre
  0x74696a657261, -- tijera
  0x74696c6465, -- tilde
  0x74696d627265, -- timbre
  0x7469cc816d69646f, -- tímido
  0x74696d6f, -- timo
  0x74696e7461, -- tinta
  0x7469cc816f, -- tío
  0x7469cc817069636f, -- típico
  0x7469706f, -- tipo
  0x74697261, -- tira
  0x7469726fcc816e, -- tirón
  0x74697461cc816e, -- titán
  0x7469cc8174657265, -- títere
  0x7469cc8174756c6f, -- título
  0x74697a61, -- tiza
  0x746f616c6c61, -- toalla
  0x746f62696c6c6f, -- tobillo
  0x746f636172, -- tocar
  0x746f63696e6f, -- tocino
  0x746f646f, -- todo
  0x746f6761, -- toga
  0x746f6c646f, -- toldo
  0x746f6d6172, -- tomar
  0x746f6e6f, -- tono
  0x746f6e746f, -- tonto
  0x746f706172, -- topar
  0x746f7065, -- tope
  0x746f717565, -- toque
  0x746fcc81726178, -- tórax
  0x746f7265726f, -- torero
  0x746f726d656e7461, -- tormenta
  0x746f726e656f, -- torneo
  0x746f726f, -- toro
  0x746f727065646f, -- torpedo
  0x746f727265, -- torre
  0x746f72736f, -- torso
  0x746f7274756761, -- tortuga
  0x746f73, -- tos
  0x746f73636f, -- tosco
  0x746f736572, -- toser
  0x746fcc817869636f, -- tóxico
  0x74726162616a6f, -- trabajo
  0x74726163746f72, -- tractor
  0x7472616572, -- traer
  0x747261cc816669636f, -- tráfico
  0x747261676f, -- trago
  0x7472616a65, -- traje
  0x7472616d6f, -- tramo
  0x7472616e6365, -- trance
  0x747261746f, -- trato
  0x747261756d61, -- trauma
  0x7472617a6172, -- trazar
  0x747265cc81626f6c, -- trébol
  0x747265677561, -- tregua
  0x747265696e7461, -- treinta
  0x7472656e, -- tren
  0x747265706172, -- trepar
  0x74726573, -- tres
  0x7472696275, -- tribu
  0x747269676f, -- trigo
  0x7472697061, -- tripa
  0x747269737465, -- triste
  0x747269756e666f, -- triunfo
  0x74726f66656f, -- trofeo
  0x74726f6d7061, -- trompa
  0x74726f6e636f, -- tronco
  0x74726f7061, -- tropa
  0x74726f7465, -- trote
  0x74726f7a6f, -- trozo
  0x747275636f, -- truco
  0x747275656e6f, -- trueno
  0x7472756661, -- trufa
  0x747562657269cc8161, -- tubería
  0x7475626f, -- tubo
  0x74756572746f, -- tuerto
  0x74756d6261, -- tumba
  0x74756d6f72, -- tumor
  0x7475cc816e656c, -- túnel
  0x7475cc816e696361, -- túnica
  0x74757262696e61, -- turbina
  0x74757269736d6f, -- turismo
  0x7475726e6f, -- turno
  0x7475746f72, -- tutor
  0x756269636172, -- ubicar
  0x75cc816c63657261, -- úlcera
  0x756d6272616c, -- umbral
  0x756e69646164, -- unidad
  0x756e6972, -- unir
  0x756e69766572736f, -- universo
  0x756e6f, -- uno
  0x756e746172, -- untar
  0x756ecc8361, -- uña
  0x757262616e6f, -- urbano
  0x75726265, -- urbe
  0x757267656e7465, -- urgente
  0x75726e61, -- urna
  0x75736172, -- usar
  0x7573756172696f, -- usuario
  0x75cc8174696c, -- útil
  0x75746f7069cc8161, -- utopía
  0x757661, -- uva
  0x76616361, -- vaca
  0x76616369cc816f, -- vacío
  0x766163756e61, -- vacuna
  0x7661676172, -- vagar
  0x7661676f, -- vago
  0x7661696e61, -- vaina
  0x76616a696c6c61, -- vajilla
  0x76616c65, -- vale
  0x7661cc816c69646f, -- válido
  0x76616c6c65, -- valle
  0x76616c6f72, -- valor
  0x7661cc816c76756c61, -- válvula
  0x76616d7069726f, -- vampiro
  0x76617261, -- vara
  0x766172696172, -- variar
  0x7661726fcc816e, -- varón
  0x7661736f, -- vaso
  0x766563696e6f, -- vecino
  0x766563746f72, -- vector
  0x76656869cc8163756c6f, -- vehículo
  0x7665696e7465, -- veinte
  0x76656a657a, -- vejez
  0x76656c61, -- vela
  0x76656c65726f, -- velero
  0x76656c6f7a, -- veloz
  0x76656e61, -- vena
  0x76656e636572, -- vencer
  0x76656e6461, -- venda
  0x76656e656e6f, -- veneno
  0x76656e676172, -- vengar
  0x76656e6972, -- venir
  0x76656e7461, -- venta
  0x76656e7573, -- venus
  0x766572, -- ver
  0x766572616e6f, -- verano
  0x766572626f, -- verbo
  0x7665726465, -- verde
  0x766572656461, -- vereda
  0x7665726a61, -- verja
  0x766572736f, -- verso
  0x766572746572, -- verter
  0x7669cc8161, -- vía
  0x7669616a65, -- viaje
  0x766962726172, -- vibrar
  0x766963696f, -- vicio
  0x7669cc816374696d61, -- víctima
  0x76696461, -- vida
  0x7669cc8164656f, -- vídeo
  0x76696472696f, -- vidrio
  0x7669656a6f, -- viejo
  0x766965726e6573, -- viernes
  0x7669676f72, -- vigor
  0x76696c, -- vil
  0x76696c6c61, -- villa
  0x76696e61677265, -- vinagre
  0x76696e6f, -- vino
  0x76696ecc8365646f, -- viñedo
  0x76696f6c69cc816e, -- violín
  0x766972616c, -- viral
  0x766972676f, -- virgo
  0x766972747564, -- virtud
  0x7669736f72, -- visor
  0x7669cc817370657261, -- víspera
  0x7669737461, -- vista
  0x766974616d696e61, -- vitamina
  0x766975646f, -- viudo
  0x766976617a, -- vivaz
  0x76697665726f, -- vivero
  0x7669766972, -- vivir
  0x7669766f, -- vivo
  0x766f6c6361cc816e, -- volcán
  0x766f6c756d656e, -- volumen
  0x766f6c766572, -- volver
  0x766f72617a, -- voraz
  0x766f746172, -- votar
  0x766f746f, -- voto
  0x766f7a, -- voz
  0x7675656c6f, -- vuelo
  0x76756c676172, -- vulgar
  0x7961636572, -- yacer
  0x79617465, -- yate
  0x7965677561, -- yegua
  0x79656d61, -- yema
  0x7965726e6f, -- yerno
  0x7965736f, -- yeso
  0x796f646f, -- yodo
  0x796f6761, -- yoga
  0x796f677572, -- yogur
  0x7a616669726f, -- zafiro
  0x7a616e6a61, -- zanja
  0x7a617061746f, -- zapato
  0x7a61727a61, -- zarza
  0x7a6f6e61, -- zona
  0x7a6f72726f, -- zorro
  0x7a756d6f, -- zumo
  0x7a7572646f] -- zurdo

/-- wordlists.go:8209-10258 `SpanishWordlist`. -/
def SpanishWordlist : List GoString := unpackWords SpanishWordlistPacked

end Btc
