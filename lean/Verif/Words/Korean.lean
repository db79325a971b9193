import Verif.Words.Basic

/-! Generated from /repo/wordlists.go, lines 10260-12309: each word is its UTF-8 bytes read as one
big-endian number (`0x61626c65` is "able"); the word is in the comment. -/

namespace Btc

set_option maxRecDepth 20000 in
/-- wordlists.go:10260-12309 `KoreanWordlist`, in order, packed. -/
def KoreanWordlistPacked : List Nat := [
  0xe18480e185a1e18480e185a7e186a8, -- 가격
  0xe18480e185a1e18481e185b3e186b7, -- 가끔
  0xe18480e185a1e18482e185a1e186ab, -- 가난
  0xe18480e185a1e18482e185b3e186bc, -- 가능
  0xe18480e185a1e18483e185b3e186a8, -- 가득
  0xe18480e185a1e18485e185b3e1848ee185b5e186b7, -- 가르침
  0xe18480e185a1e18486e185aee186b7, -- 가뭄
  0xe18480e185a1e18487e185a1e186bc, -- 가방
  0xe18480e185a1e18489e185a1e186bc, -- 가상
  0xe18480e185a1e18489e185b3e186b7, -- 가슴
  0xe18480e185a1e1848be185aee186abe18483e185a6, -- 가운데
  0xe18480e185a1e1848be185b3e186af, -- 가을
  0xe18480e185a1e1848be185b5e18483e185b3, -- 가이드
  0xe18480e185a1e1848be185b5e186b8, -- 가입
  0xe18480e185a1e1848ce185a1e186bc, -- 가장
  0xe18480e185a1e1848ce185a5e186bc, -- 가정
  0xe18480e185a1e1848ce185a9e186a8, -- 가족
  0xe18480e185a1e1848ce185aee186a8, -- 가죽
  0xe18480e185a1e186a8e1848be185a9, -- 각오
  0xe18480e185a1e186a8e1848ce185a1, -- 각자
  0xe18480e185a1e186abe18480e185a7e186a8, -- 간격
  0xe18480e185a1e186abe18487e185ae, -- 간부
  0xe18480e185a1e186abe18489e185a5e186b8, -- 간섭
  0xe18480e185a1e186abe1848ce185a1e186bc, -- 간장
  0xe18480e185a1e186abe1848ce185a5e186b8, -- 간접
  0xe18480e185a1e186abe18491e185a1e186ab, -- 간판
  0xe18480e185a1e186afe18483e185b3e186bc, -- 갈등
  0xe18480e185a1e186afe18487e185b5, -- 갈비
  0xe18480e185a1e186afe18489e185a2e186a8, -- 갈색
  0xe18480e185a1e186afe1848ce185b3e186bc, -- 갈증
  0xe18480e185a1e186b7e18480e185a1e186a8, -- 감각
  0xe18480e185a1e186b7e18480e185b5, -- 감기
  0xe18480e185a1e186b7e18489e185a9, -- 감소
  0xe18480e185a1e186b7e18489e185aee18489e185a5e186bc, -- 감수성
  0xe18480e185a1e186b7e1848ce185a1, -- 감자
  0xe18480e185a1e186b7e1848ce185a5e186bc, -- 감정
  0xe18480e185a1e186b8e1848ce185a1e18480e185b5, -- 갑자기
  0xe18480e185a1e186bce18482e185a1e186b7, -- 강남
  0xe18480e185a1e186bce18483e185a1e186bc, -- 강당
  0xe18480e185a1e186bce18483e185a9, -- 강도
  0xe18480e185a1e186bce18485e185a7e186a8e18492e185b5, -- 강력히
  0xe18480e185a1e186bce18487e185a7e186ab, -- 강변
  0xe18480e185a1e186bce18487e185aee186a8, -- 강북
  0xe18480e185a1e186bce18489e185a1, -- 강사
  0xe18480e185a1e186bce18489e185aee18485e185a3e186bc, -- 강수량
  0xe18480e185a1e186bce1848be185a1e1848ce185b5, -- 강아지
  0xe18480e185a1e186bce1848be185afe186abe18483e185a9, -- 강원도
  0xe18480e185a1e186bce1848be185b4, -- 강의
  0xe18480e185a1e186bce1848ce185a6, -- 강제
  0xe18480e185a1e186bce1848ce185a9, -- 강조
  0xe18480e185a1e18780e1848be185b5, -- 같이
  0xe18480e185a2e18480e185aee18485e185b5, -- 개구리
  0xe18480e185a2e18482e185a1e18485e185b5, -- 개나리
  0xe18480e185a2e18487e185a1e186bc, -- 개방
  0xe18480e185a2e18487e185a7e186af, -- 개별
  0xe18480e185a2e18489e185a5e186ab, -- 개선
  0xe18480e185a2e18489e185a5e186bc, -- 개성
  0xe18480e185a2e1848be185b5e186ab, -- 개인
  0xe18480e185a2e186a8e18480e185aae186abe1848ce185a5e186a8, -- 객관적
  0xe18480e185a5e18489e185b5e186af, -- 거실
  0xe18480e185a5e1848be185a2e186a8, -- 거액
  0xe18480e185a5e1848be185aee186af, -- 거울
  0xe18480e185a5e1848ce185b5e186ba, -- 거짓
  0xe18480e185a5e18491e185aee186b7, -- 거품
  0xe18480e185a5e186a8e1848ce185a5e186bc, -- 걱정
  0xe18480e185a5e186abe18480e185a1e186bc, -- 건강
  0xe18480e185a5e186abe18486e185aee186af, -- 건물
  0xe18480e185a5e186abe18489e185a5e186af, -- 건설
  0xe18480e185a5e186abe1848ce185a9, -- 건조
  0xe18480e185a5e186abe1848ee185aee186a8, -- 건축
  0xe18480e185a5e186afe1848be185b3e186b7, -- 걸음
  0xe18480e185a5e186b7e18489e185a1, -- 검사
  0xe18480e185a5e186b7e18490e185a9, -- 검토
  0xe18480e185a6e18489e185b5e18491e185a1e186ab, -- 게시판
  0xe18480e185a6e1848be185b5e186b7, -- 게임
  0xe18480e185a7e1848be185aee186af, -- 겨울
  0xe18480e185a7e186abe18492e185a2, -- 견해
  0xe18480e185a7e186afe18480e185aa, -- 결과
  0xe18480e185a7e186afe18480e185aee186a8, -- 결국
  0xe18480e185a7e186afe18485e185a9e186ab, -- 결론
  0xe18480e185a7e186afe18489e185a5e186a8, -- 결석
  0xe18480e185a7e186afe18489e185b3e186bc, -- 결승
  0xe18480e185a7e186afe18489e185b5e186b7, -- 결심
  0xe18480e185a7e186afe1848ce185a5e186bc, -- 결정
  0xe18480e185a7e186afe18492e185a9e186ab, -- 결혼
  0xe18480e185a7e186bce18480e185a8, -- 경계
  0xe18480e185a7e186bce18480e185a9, -- 경고
  0xe18480e185a7e186bce18480e185b5, -- 경기
  0xe18480e185a7e186bce18485e185a7e186a8, -- 경력
  0xe18480e185a7e186bce18487e185a9e186a8e18480e185aee186bc, -- 경복궁
  0xe18480e185a7e186bce18487e185b5, -- 경비
  0xe18480e185a7e186bce18489e185a1e186bce18483e185a9, -- 경상도
  0xe18480e185a7e186bce1848be185a7e186bc, -- 경영
  0xe18480e185a7e186bce1848be185ae, -- 경우
  0xe18480e185a7e186bce1848ce185a2e186bc, -- 경쟁
  0xe18480e185a7e186bce1848ce185a6, -- 경제
  0xe18480e185a7e186bce1848ce185ae, -- 경주
  0xe18480e185a7e186bce1848ee185a1e186af, -- 경찰
  0xe18480e185a7e186bce1848ee185b5, -- 경치
  0xe18480e185a7e186bce18492e185a3e186bc, -- 경향
  0xe18480e185a7e186bce18492e185a5e186b7, -- 경험
  0xe18480e185a8e18480e185a9e186a8, -- 계곡
  0xe18480e185a8e18483e185a1e186ab, -- 계단
  0xe18480e185a8e18485e185a1e186ab, -- 계란
  0xe18480e185a8e18489e185a1e186ab, -- 계산
  0xe18480e185a8e18489e185a9e186a8, -- 계속
  0xe18480e185a8e1848be185a3e186a8, -- 계약
  0xe18480e185a8e1848ce185a5e186af, -- 계절
  0xe18480e185a8e1848ee185b3e186bc, -- 계층
  0xe18480e185a8e18492e185ace186a8, -- 계획
  0xe18480e185a9e18480e185a2e186a8, -- 고객
  0xe18480e185a9e18480e185aee18485e185a7, -- 고구려
  0xe18480e185a9e18480e185aee186bc, -- 고궁
  0xe18480e185a9e18480e185b3e186b8, -- 고급
  0xe18480e185a9e18483e185b3e186bce18492e185a1e186a8e18489e185a2e186bc, -- 고등학생
  0xe18480e185a9e18486e185aee18489e185b5e186ab, -- 고무신
  0xe18480e185a9e18486e185b5e186ab, -- 고민
  0xe18480e185a9e1848be185a3e186bce1848be185b5, -- 고양이
  0xe18480e185a9e1848ce185a1e186bc, -- 고장
  0xe18480e185a9e1848ce185a5e186ab, -- 고전
  0xe18480e185a9e1848ce185b5e186b8, -- 고집
  0xe18480e185a9e1848ee185aee186bae18480e185a1e18485e185ae, -- 고춧가루
  0xe18480e185a9e18490e185a9e186bc, -- 고통
  0xe18480e185a9e18492e185a3e186bc, -- 고향
  0xe18480e185a9e186a8e18489e185b5e186a8, -- 곡식
  0xe18480e185a9e186afe18486e185a9e186a8, -- 골목
  0xe18480e185a9e186afe1848de185a1e18480e185b5, -- 골짜기
  0xe18480e185a9e186afe18491e185b3, -- 골프
  0xe18480e185a9e186bce18480e185a1e186ab, -- 공간
  0xe18480e185a9e186bce18480e185a2, -- 공개
  0xe18480e185a9e186bce18480e185a7e186a8, -- 공격
  0xe18480e185a9e186bce18480e185aee186ab, -- 공군
  0xe18480e185a9e186bce18480e185b3e186b8, -- 공급
  0xe18480e185a9e186bce18480e185b5, -- 공기
  0xe18480e185a9e186bce18483e185a9e186bc, -- 공동
  0xe18480e185a9e186bce18486e185aee1848be185afe186ab, -- 공무원
  0xe18480e185a9e186bce18487e185ae, -- 공부
  0xe18480e185a9e186bce18489e185a1, -- 공사
  0xe18480e185a9e186bce18489e185b5e186a8, -- 공식
  0xe18480e185a9e186bce1848be185a5e186b8, -- 공업
  0xe18480e185a9e186bce1848be185a7e186ab, -- 공연
  0xe18480e185a9e186bce1848be185afe186ab, -- 공원
  0xe18480e185a9e186bce1848ce185a1e186bc, -- 공장
  0xe18480e185a9e186bce1848de185a1, -- 공짜
  0xe18480e185a9e186bce1848ee185a2e186a8, -- 공책
  0xe18480e185a9e186bce18490e185a9e186bc, -- 공통
  0xe18480e185a9e186bce18491e185a9, -- 공포
  0xe18480e185a9e186bce18492e185a1e186bc, -- 공항
  0xe18480e185a9e186bce18492e185b2e1848be185b5e186af, -- 공휴일
  0xe18480e185aae18486e185a9e186a8, -- 과목
  0xe18480e185aae1848be185b5e186af, -- 과일
  0xe18480e185aae1848ce185a1e186bc, -- 과장
  0xe18480e185aae1848ce185a5e186bc, -- 과정
  0xe18480e185aae18492e185a1e186a8, -- 과학
  0xe18480e185aae186abe18480e185a2e186a8, -- 관객
  0xe18480e185aae186abe18480e185a8, -- 관계
  0xe18480e185aae186abe18480e185aae186bc, -- 관광
  0xe18480e185aae186abe18482e185a7e186b7, -- 관념
  0xe18480e185aae186abe18485e185a1e186b7, -- 관람
  0xe18480e185aae186abe18485e185a7e186ab, -- 관련
  0xe18480e185aae186abe18485e185b5, -- 관리
  0xe18480e185aae186abe18489e185b3e186b8, -- 관습
  0xe18480e185aae186abe18489e185b5e186b7, -- 관심
  0xe18480e185aae186abe1848ce185a5e186b7, -- 관점
  0xe18480e185aae186abe1848ee185a1e186af, -- 관찰
  0xe18480e185aae186bce18480e185a7e186bc, -- 광경
  0xe18480e185aae186bce18480e185a9, -- 광고
  0xe18480e185aae186bce1848ce185a1e186bc, -- 광장
  0xe18480e185aae186bce1848ce185ae, -- 광주
  0xe18480e185ace18485e185a9e1848be185aee186b7, -- 괴로움
  0xe18480e185ace186bce1848ce185a1e186bce18492e185b5, -- 굉장히
  0xe18480e185ade18480e185aae18489e185a5, -- 교과서
  0xe18480e185ade18486e185aee186ab, -- 교문
  0xe18480e185ade18487e185a9e186a8, -- 교복
  0xe18480e185ade18489e185b5e186af, -- 교실
  0xe18480e185ade1848be185a3e186bc, -- 교양
  0xe18480e185ade1848be185b2e186a8, -- 교육
  0xe18480e185ade1848ce185a1e186bc, -- 교장
  0xe18480e185ade1848ce185b5e186a8, -- 교직
  0xe18480e185ade18490e185a9e186bc, -- 교통
  0xe18480e185ade18492e185aae186ab, -- 교환
  0xe18480e185ade18492e185aee186ab, -- 교훈
  0xe18480e185aee18480e185a7e186bc, -- 구경
  0xe18480e185aee18485e185b3e186b7, -- 구름
  0xe18480e185aee18486e185a5e186bc, -- 구멍
  0xe18480e185aee18487e185a7e186af, -- 구별
  0xe18480e185aee18487e185aee186ab, -- 구분
  0xe18480e185aee18489e185a5e186a8, -- 구석
  0xe18480e185aee18489e185a5e186bc, -- 구성
  0xe18480e185aee18489e185a9e186a8, -- 구속
  0xe18480e185aee1848be185a7e186a8, -- 구역
  0xe18480e185aee1848be185b5e186b8, -- 구입
  0xe18480e185aee1848ee185a5e186bc, -- 구청
  0xe18480e185aee1848ee185a6e1848ce185a5e186a8, -- 구체적
  0xe18480e185aee186a8e18480e185a1, -- 국가
  0xe18480e185aee186a8e18480e185b5, -- 국기
  0xe18480e185aee186a8e18482e185a2, -- 국내
  0xe18480e185aee186a8e18485e185b5e186b8, -- 국립
  0xe18480e185aee186a8e18486e185aee186af, -- 국물
  0xe18480e185aee186a8e18486e185b5e186ab, -- 국민
  0xe18480e185aee186a8e18489e185ae, -- 국수
  0xe18480e185aee186a8e1848be185a5, -- 국어
  0xe18480e185aee186a8e1848be185aae186bc, -- 국왕
  0xe18480e185aee186a8e1848ce185a5e186a8, -- 국적
  0xe18480e185aee186a8e1848ce185a6, -- 국제
  0xe18480e185aee186a8e18492e185ac, -- 국회
  0xe18480e185aee186abe18483e185a2, -- 군대
  0xe18480e185aee186abe18489e185a1, -- 군사
  0xe18480e185aee186abe1848be185b5e186ab, -- 군인
  0xe18480e185aee186bce18480e185b3e186a8e1848ce185a5e186a8, -- 궁극적
  0xe18480e185afe186abe18485e185b5, -- 권리
  0xe18480e185afe186abe1848be185b1, -- 권위
  0xe18480e185afe186abe18490e185ae, -- 권투
  0xe18480e185b1e18480e185aee186a8, -- 귀국
  0xe18480e185b1e18489e185b5e186ab, -- 귀신
  0xe18480e185b2e1848ce185a5e186bc, -- 규정
  0xe18480e185b2e1848ee185b5e186a8, -- 규칙
  0xe18480e185b2e186abe18492e185a7e186bc, -- 균형
  0xe18480e185b3e18482e185a1e186af, -- 그날
  0xe18480e185b3e18482e185a3e186bc, -- 그냥
  0xe18480e185b3e18482e185b3e186af, -- 그늘
  0xe18480e185b3e18485e185a5e18482e185a1, -- 그러나
  0xe18480e185b3e18485e185aee186b8, -- 그룹
  0xe18480e185b3e18485e185b3e186ba, -- 그릇
  0xe18480e185b3e18485e185b5e186b7, -- 그림
  0xe18480e185b3e1848ce185a6e18489e185a5e1848be185a3, -- 그제서야
  0xe18480e185b3e18490e185a9e18485e185a9e186a8, -- 그토록
  0xe18480e185b3e186a8e18487e185a9e186a8, -- 극복
  0xe18480e185b3e186a8e18492e185b5, -- 극히
  0xe18480e185b3e186abe18480e185a5, -- 근거
  0xe18480e185b3e186abe18480e185ad, -- 근교
  0xe18480e185b3e186abe18485e185a2, -- 근래
  0xe18480e185b3e186abe18485e185a9, -- 근로
  0xe18480e185b3e186abe18486e185ae, -- 근무
  0xe18480e185b3e186abe18487e185a9e186ab, -- 근본
  0xe18480e185b3e186abe1848be185afe186ab, -- 근원
  0xe18480e185b3e186abe1848be185b2e186a8, -- 근육
  0xe18480e185b3e186abe1848ee185a5, -- 근처
  0xe18480e185b3e186afe1848ae185b5, -- 글씨
  0xe18480e185b3e186afe1848ce185a1, -- 글자
  0xe18480e185b3e186b7e18480e185a1e186bce18489e185a1e186ab, -- 금강산
  0xe18480e185b3e186b7e18480e185a9, -- 금고
  0xe18480e185b3e186b7e18482e185a7e186ab, -- 금년
  0xe18480e185b3e186b7e18486e185a6e18483e185a1e186af, -- 금메달
  0xe18480e185b3e186b7e1848be185a2e186a8, -- 금액
  0xe18480e185b3e186b7e1848be185a7e186ab, -- 금연
  0xe18480e185b3e186b7e1848be185ade1848be185b5e186af, -- 금요일
  0xe18480e185b3e186b7e1848ce185b5, -- 금지
  0xe18480e185b3e186bce1848ce185a5e186bce1848ce185a5e186a8, -- 긍정적
  0xe18480e185b5e18480e185a1e186ab, -- 기간
  0xe18480e185b5e18480e185aae186ab, -- 기관
  0xe18480e185b5e18482e185a7e186b7, -- 기념
  0xe18480e185b5e18482e185b3e186bc, -- 기능
  0xe18480e185b5e18483e185a9e186a8e18480e185ad, -- 기독교
  0xe18480e185b5e18483e185aee186bc, -- 기둥
  0xe18480e185b5e18485e185a9e186a8, -- 기록
  0xe18480e185b5e18485e185b3e186b7, -- 기름
  0xe18480e185b5e18487e185a5e186b8, -- 기법
  0xe18480e185b5e18487e185a9e186ab, -- 기본
  0xe18480e185b5e18487e185aee186ab, -- 기분
  0xe18480e185b5e18488e185b3e186b7, -- 기쁨
  0xe18480e185b5e18489e185aee186a8e18489e185a1, -- 기숙사
  0xe18480e185b5e18489e185aee186af, -- 기술
  0xe18480e185b5e1848be185a5e186a8, -- 기억
  0xe18480e185b5e1848be185a5e186b8, -- 기업
  0xe18480e185b5e1848be185a9e186ab, -- 기온
  0xe18480e185b5e1848be185aee186ab, -- 기운
  0xe18480e185b5e1848be185afe186ab, -- 기원
  0xe18480e185b5e1848ce185a5e186a8, -- 기적
  0xe18480e185b5e1848ce185aee186ab, -- 기준
  0xe18480e185b5e1848ee185b5e186b7, -- 기침
  0xe18480e185b5e18492e185a9e186ab, -- 기혼
  0xe18480e185b5e18492e185ace186a8, -- 기획
  0xe18480e185b5e186abe18480e185b3e186b8, -- 긴급
  0xe18480e185b5e186abe1848ce185a1e186bc, -- 긴장
  0xe18480e185b5e186afe1848be185b5, -- 길이
  0xe18480e185b5e186b7e18487e185a1e186b8, -- 김밥
  0xe18480e185b5e186b7e1848ee185b5, -- 김치
  0xe18480e185b5e186b7e18491e185a9e18480e185a9e186bce18492e185a1e186bc, -- 김포공항
  0xe18481e185a1e186a8e18483e185aee18480e185b5, -- 깍두기
  0xe18481e185a1e186b7e18488e185a1e186a8, -- 깜빡
  0xe18481e185a2e18483e185a1e186afe1848be185b3e186b7, -- 깨달음
  0xe18481e185a2e18489e185a9e18480e185b3e186b7, -- 깨소금
  0xe18481e185a5e186b8e1848ce185b5e186af, -- 껍질
  0xe18481e185a9e186a8e18483e185a2e18480e185b5, -- 꼭대기
  0xe18481e185a9e186bee1848be185b5e18781, -- 꽃잎
  0xe18482e185a1e18483e185b3e186afe1848be185b5, -- 나들이
  0xe18482e185a1e18485e185a1e186abe18492e185b5, -- 나란히
  0xe18482e185a1e18486e185a5e1848ce185b5, -- 나머지
  0xe18482e185a1e18486e185aee186af, -- 나물
  0xe18482e185a1e1848ee185b5e186b7e18487e185a1e186ab, -- 나침반
  0xe18482e185a1e18492e185b3e186af, -- 나흘
  0xe18482e185a1e186a8e1848be185a7e186b8, -- 낙엽
  0xe18482e185a1e186abe18487e185a1e186bc, -- 난방
  0xe18482e185a1e186afe18480e185a2, -- 날개
  0xe18482e185a1e186afe1848ae185b5, -- 날씨
  0xe18482e185a1e186afe1848de185a1, -- 날짜
  0xe18482e185a1e186b7e18482e185a7, -- 남녀
  0xe18482e185a1e186b7e18483e185a2e18486e185aee186ab, -- 남대문
  0xe18482e185a1e186b7e18486e185a2, -- 남매
  0xe18482e185a1e186b7e18489e185a1e186ab, -- 남산
  0xe18482e185a1e186b7e1848ce185a1, -- 남자
  0xe18482e185a1e186b7e18491e185a7e186ab, -- 남편
  0xe18482e185a1e186b7e18492e185a1e186a8e18489e185a2e186bc, -- 남학생
  0xe18482e185a1e186bce18487e185b5, -- 낭비
  0xe18482e185a1e18780e18486e185a1e186af, -- 낱말
  0xe18482e185a2e18482e185a7e186ab, -- 내년
  0xe18482e185a2e1848be185ade186bc, -- 내용
  0xe18482e185a2e1848be185b5e186af, -- 내일
  0xe18482e185a2e186b7e18487e185b5, -- 냄비
  0xe18482e185a2e186b7e18489e185a2, -- 냄새
  0xe18482e185a2e186bae18486e185aee186af, -- 냇물
  0xe18482e185a2e186bce18483e185a9e186bc, -- 냉동
  0xe18482e185a2e186bce18486e185a7e186ab, -- 냉면
  0xe18482e185a2e186bce18487e185a1e186bc, -- 냉방
  0xe18482e185a2e186bce1848ce185a1e186bce18480e185a9, -- 냉장고
  0xe18482e185a6e186a8e18490e185a1e1848be185b5, -- 넥타이
  0xe18482e185a6e186bae1848de185a2, -- 넷째
  0xe18482e185a9e18483e185a9e186bc, -- 노동
  0xe18482e185a9e18485e185a1e186abe18489e185a2e186a8, -- 노란색
  0xe18482e185a9e18485e185a7e186a8, -- 노력
  0xe18482e185a9e1848be185b5e186ab, -- 노인
  0xe18482e185a9e186a8e1848be185b3e186b7, -- 녹음
  0xe18482e185a9e186a8e1848ee185a1, -- 녹차
  0xe18482e185a9e186a8e18492e185aa, -- 녹화
  0xe18482e185a9e186abe18485e185b5, -- 논리
  0xe18482e185a9e186abe18486e185aee186ab, -- 논문
  0xe18482e185a9e186abe1848ce185a2e186bc, -- 논쟁
  0xe18482e185a9e186afe1848be185b5, -- 놀이
  0xe18482e185a9e186bce18480e185ae, -- 농구
  0xe18482e185a9e186bce18483e185a1e186b7, -- 농담
  0xe18482e185a9e186bce18486e185b5e186ab, -- 농민
  0xe18482e185a9e186bce18487e185ae, -- 농부
  0xe18482e185a9e186bce1848be185a5e186b8, -- 농업
  0xe18482e185a9e186bce1848ce185a1e186bc, -- 농장
  0xe18482e185a9e186bce1848ee185a9e186ab, -- 농촌
  0xe18482e185a9e18781e1848be185b5, -- 높이
  0xe18482e185aee186abe18483e185a9e186bce1848ce185a1, -- 눈동자
  0xe18482e185aee186abe18486e185aee186af, -- 눈물
  0xe18482e185aee186abe1848ae185a5e186b8, -- 눈썹
  0xe18482e185b2e1848be185ade186a8, -- 뉴욕
  0xe18482e185b3e18481e185b5e186b7, -- 느낌
  0xe18482e185b3e186a8e18483e185a2, -- 늑대
  0xe18482e185b3e186bce18483e185a9e186bce1848ce185a5e186a8, -- 능동적
  0xe18482e185b3e186bce18485e185a7e186a8, -- 능력
  0xe18483e185a1e18487e185a1e186bc, -- 다방
  0xe18483e185a1e1848be185a3e186bce18489e185a5e186bc, -- 다양성
  0xe18483e185a1e1848be185b3e186b7, -- 다음
  0xe18483e185a1e1848be185b5e1848be185a5e18490e185b3, -- 다이어트
  0xe18483e185a1e18492e185a2e186bc, -- 다행
  0xe18483e185a1e186abe18480e185a8, -- 단계
  0xe18483e185a1e186abe18480e185a9e186af, -- 단골
  0xe18483e185a1e186abe18483e185a9e186a8, -- 단독
  0xe18483e185a1e186abe18486e185a1e186ba, -- 단맛
  0xe18483e185a1e186abe18489e185aee186ab, -- 단순
  0xe18483e185a1e186abe1848be185a5, -- 단어
  0xe18483e185a1e186abe1848be185b1, -- 단위
  0xe18483e185a1e186abe1848ce185a5e186b7, -- 단점
  0xe18483e185a1e186abe1848ee185a6, -- 단체
  0xe18483e185a1e186abe1848ee185ae, -- 단추
  0xe18483e185a1e186abe18491e185a7e186ab, -- 단편
  0xe18483e185a1e186abe18491e185aee186bc, -- 단풍
  0xe18483e185a1e186afe18480e185a3e186af, -- 달걀
  0xe18483e185a1e186afe18485e185a5, -- 달러
  0xe18483e185a1e186afe18485e185a7e186a8, -- 달력
  0xe18483e185a1e186afe18485e185b5, -- 달리
  0xe18483e185a1e186b0e18480e185a9e18480e185b5, -- 닭고기
  0xe18483e185a1e186b7e18483e185a1e186bc, -- 담당
  0xe18483e185a1e186b7e18487e185a2, -- 담배
  0xe18483e185a1e186b7e1848be185ad, -- 담요
  0xe18483e185a1e186b7e1848be185b5e186b7, -- 담임
  0xe18483e185a1e186b8e18487e185a7e186ab, -- 답변
  0xe18483e185a1e186b8e1848ce185a1e186bc, -- 답장
  0xe18483e185a1e186bce18480e185b3e186ab, -- 당근
  0xe18483e185a1e186bce18487e185aee186abe18480e185a1e186ab, -- 당분간
  0xe18483e185a1e186bce1848be185a7e186abe18492e185b5, -- 당연히
  0xe18483e185a1e186bce1848ce185a1e186bc, -- 당장
  0xe18483e185a2e18480e185b2e18486e185a9, -- 대규모
  0xe18483e185a2e18482e185a1e186bd, -- 대낮
  0xe18483e185a2e18483e185a1e186abe18492e185b5, -- 대단히
  0xe18483e185a2e18483e185a1e186b8, -- 대답
  0xe18483e185a2e18483e185a9e18489e185b5, -- 대도시
  0xe18483e185a2e18485e185a3e186a8, -- 대략
  0xe18483e185a2e18485e185a3e186bc, -- 대량
  0xe18483e185a2e18485e185b2e186a8, -- 대륙
  0xe18483e185a2e18486e185aee186ab, -- 대문
  0xe18483e185a2e18487e185aee18487e185aee186ab, -- 대부분
  0xe18483e185a2e18489e185b5e186ab, -- 대신
  0xe18483e185a2e1848be185b3e186bc, -- 대응
  0xe18483e185a2e1848ce185a1e186bc, -- 대장
  0xe18483e185a2e1848ce185a5e186ab, -- 대전
  0xe18483e185a2e1848ce185a5e186b8, -- 대접
  0xe18483e185a2e1848ce185aee186bc, -- 대중
  0xe18483e185a2e1848ee185a2e186a8, -- 대책
  0xe18483e185a2e1848ee185aee186af, -- 대출
  0xe18483e185a2e1848ee185aee186bc, -- 대충
  0xe18483e185a2e18490e185a9e186bce18485e185a7e186bc, -- 대통령
  0xe18483e185a2e18492e185a1e186a8, -- 대학
  0xe18483e185a2e18492e185a1e186abe18486e185b5e186abe18480e185aee186a8, -- 대한민국
  0xe18483e185a2e18492e185a1e186b8e18489e185b5e186af, -- 대합실
  0xe18483e185a2e18492e185a7e186bc, -- 대형
  0xe18483e185a5e186bce1848be185a5e18485e185b5, -- 덩어리
  0xe18483e185a6e1848be185b5e18490e185b3, -- 데이트
  0xe18483e185a9e18483e185a2e1848ee185a6, -- 도대체
  0xe18483e185a9e18483e185a5e186a8, -- 도덕
  0xe18483e185a9e18483e185aee186a8, -- 도둑
  0xe18483e185a9e18486e185a1e186bc, -- 도망
  0xe18483e185a9e18489e185a5e18480e185aae186ab, -- 도서관
  0xe18483e185a9e18489e185b5e186b7, -- 도심
  0xe18483e185a9e1848be185aee186b7, -- 도움
  0xe18483e185a9e1848be185b5e186b8, -- 도입
  0xe18483e185a9e1848ce185a1e18480e185b5, -- 도자기
  0xe18483e185a9e1848ce185a5e18492e185b5, -- 도저히
  0xe18483e185a9e1848ce185a5e186ab, -- 도전
  0xe18483e185a9e1848ce185aee186bc, -- 도중
  0xe18483e185a9e1848ee185a1e186a8, -- 도착
  0xe18483e185a9e186a8e18480e185a1e186b7, -- 독감
  0xe18483e185a9e186a8e18485e185b5e186b8, -- 독립
  0xe18483e185a9e186a8e18489e185a5, -- 독서
  0xe18483e185a9e186a8e1848be185b5e186af, -- 독일
  0xe18483e185a9e186a8e1848ee185a1e186bce1848ce185a5e186a8, -- 독창적
  0xe18483e185a9e186bce18492e185aae1848ee185a2e186a8, -- 동화책
  0xe18483e185b1e186bae18486e185a9e18489e185b3e186b8, -- 뒷모습
  0xe18483e185b1e186bae18489e185a1e186ab, -- 뒷산
  0xe18484e185a1e186afe1848be185a1e1848be185b5, -- 딸아이
  0xe18486e185a1e18482e185aee18485e185a1, -- 마누라
  0xe18486e185a1e18482e185b3e186af, -- 마늘
  0xe18486e185a1e18483e185a1e186bc, -- 마당
  0xe18486e185a1e18485e185a1e18490e185a9e186ab, -- 마라톤
  0xe18486e185a1e18485e185a7e186ab, -- 마련
  0xe18486e185a1e18486e185aee18485e185b5, -- 마무리
  0xe18486e185a1e18489e185a1e1848ce185b5, -- 마사지
  0xe18486e185a1e1848be185a3e186a8, -- 마약
  0xe18486e185a1e1848be185ade18482e185a6e1848ce185b3, -- 마요네즈
  0xe18486e185a1e1848be185b3e186af, -- 마을
  0xe18486e185a1e1848be185b3e186b7, -- 마음
  0xe18486e185a1e1848be185b5e1848fe185b3, -- 마이크
  0xe18486e185a1e1848ce185aee186bc, -- 마중
  0xe18486e185a1e1848ce185b5e18486e185a1e186a8, -- 마지막
  0xe18486e185a1e1848ee185a1e186abe18480e185a1e1848ce185b5, -- 마찬가지
  0xe18486e185a1e1848ee185a1e186af, -- 마찰
  0xe18486e185a1e18492e185b3e186ab, -- 마흔
  0xe18486e185a1e186a8e18480e185a5e186afe18485e185b5, -- 막걸리
  0xe18486e185a1e186a8e18482e185a2, -- 막내
  0xe18486e185a1e186a8e18489e185a1e186bc, -- 막상
  0xe18486e185a1e186abe18482e185a1e186b7, -- 만남
  0xe18486e185a1e186abe18483e185ae, -- 만두
  0xe18486e185a1e186abe18489e185a6, -- 만세
  0xe18486e185a1e186abe1848be185a3e186a8, -- 만약
  0xe18486e185a1e186abe1848be185b5e186af, -- 만일
  0xe18486e185a1e186abe1848ce185a5e186b7, -- 만점
  0xe18486e185a1e186abe1848ce185a9e186a8, -- 만족
  0xe18486e185a1e186abe18492e185aa, -- 만화
  0xe18486e185a1e186ade1848be185b5, -- 많이
  0xe18486e185a1e186afe18480e185b5, -- 말기
  0xe18486e185a1e186afe1848ae185b3e186b7, -- 말씀
  0xe18486e185a1e186afe18490e185ae, -- 말투
  0xe18486e185a1e186b7e18483e185a2e18485e185a9, -- 맘대로
  0xe18486e185a1e186bce1848be185afe186abe18480e185a7e186bc, -- 망원경
  0xe18486e185a2e18482e185a7e186ab, -- 매년
  0xe18486e185a2e18483e185a1e186af, -- 매달
  0xe18486e185a2e18485e185a7e186a8, -- 매력
  0xe18486e185a2e18487e185a5e186ab, -- 매번
  0xe18486e185a2e18489e185b3e1848fe185a5e186b7, -- 매스컴
  0xe18486e185a2e1848be185b5e186af, -- 매일
  0xe18486e185a2e1848ce185a1e186bc, -- 매장
  0xe18486e185a2e186a8e1848ce185ae, -- 맥주
  0xe18486e185a5e186a8e1848be185b5, -- 먹이
  0xe18486e185a5e186abe1848ce185a5, -- 먼저
  0xe18486e185a5e186abe1848ce185b5, -- 먼지
  0xe18486e185a5e186afe18485e185b5, -- 멀리
  0xe18486e185a6e1848be185b5e186af, -- 메일
  0xe18486e185a7e18482e185b3e18485e185b5, -- 며느리
  0xe18486e185a7e1848ee185b5e186af, -- 며칠
  0xe18486e185a7e186abe18483e185a1e186b7, -- 면담
  0xe18486e185a7e186afe1848ee185b5, -- 멸치
  0xe18486e185a7e186bce18483e185a1e186ab, -- 명단
  0xe18486e185a7e186bce18485e185a7e186bc, -- 명령
  0xe18486e185a7e186bce1848be185a8, -- 명예
  0xe18486e185a7e186bce1848be185b4, -- 명의
  0xe18486e185a7e186bce1848ce185a5e186af, -- 명절
  0xe18486e185a7e186bce1848ee185b5e186bc, -- 명칭
  0xe18486e185a7e186bce18492e185a1e186b7, -- 명함
  0xe18486e185a9e18480e185b3e186b7, -- 모금
  0xe18486e185a9e18482e185b5e18490e185a5, -- 모니터
  0xe18486e185a9e18483e185a6e186af, -- 모델
  0xe18486e185a9e18483e185b3e186ab, -- 모든
  0xe18486e185a9e18487e185a5e186b7, -- 모범
  0xe18486e185a9e18489e185b3e186b8, -- 모습
  0xe18486e185a9e1848be185a3e186bc, -- 모양
  0xe18486e185a9e1848be185b5e186b7, -- 모임
  0xe18486e185a9e1848ce185a9e18485e185b5, -- 모조리
  0xe18486e185a9e1848ce185b5e186b8, -- 모집
  0xe18486e185a9e18490e185aee186bce1848be185b5, -- 모퉁이
  0xe18486e185a9e186a8e18480e185a5e186afe1848be185b5, -- 목걸이
  0xe18486e185a9e186a8e18485e185a9e186a8, -- 목록
  0xe18486e185a9e186a8e18489e185a1, -- 목사
  0xe18486e185a9e186a8e18489e185a9e18485e185b5, -- 목소리
  0xe18486e185a9e186a8e18489e185aee186b7, -- 목숨
  0xe18486e185a9e186a8e1848ce185a5e186a8, -- 목적
  0xe18486e185a9e186a8e18491e185ad, -- 목표
  0xe18486e185a9e186afe18485e185a2, -- 몰래
  0xe18486e185a9e186b7e18486e185a2, -- 몸매
  0xe18486e185a9e186b7e18486e185aee18480e185a6, -- 몸무게
  0xe18486e185a9e186b7e18489e185a1e186af, -- 몸살
  0xe18486e185a9e186b7e18489e185a9e186a8, -- 몸속
  0xe18486e185a9e186b7e1848ce185b5e186ba, -- 몸짓
  0xe18486e185a9e186b7e18490e185a9e186bc, -- 몸통
  0xe18486e185a9e186b8e18489e185b5, -- 몹시
  0xe18486e185aee18480e185aae186abe18489e185b5e186b7, -- 무관심
  0xe18486e185aee18480e185aee186bce18492e185aa, -- 무궁화
  0xe18486e185aee18483e185a5e1848be185b1, -- 무더위
  0xe18486e185aee18483e185a5e186b7, -- 무덤
  0xe18486e185aee18485e185b3e18781, -- 무릎
  0xe18486e185aee18489e185b3e186ab, -- 무슨
  0xe18486e185aee1848be185a5e186ba, -- 무엇
  0xe18486e185aee1848be185a7e186a8, -- 무역
  0xe18486e185aee1848be185ade186bc, -- 무용
  0xe18486e185aee1848ce185a9e18480e185a5e186ab, -- 무조건
  0xe18486e185aee1848ce185b5e18480e185a2, -- 무지개
  0xe18486e185aee1848ee185a5e186a8, -- 무척
  0xe18486e185aee186abe18480e185ae, -- 문구
  0xe18486e185aee186abe18483e185b3e186a8, -- 문득
  0xe18486e185aee186abe18487e185a5e186b8, -- 문법
  0xe18486e185aee186abe18489e185a5, -- 문서
  0xe18486e185aee186abe1848ce185a6, -- 문제
  0xe18486e185aee186abe18492e185a1e186a8, -- 문학
  0xe18486e185aee186abe18492e185aa, -- 문화
  0xe18486e185aee186afe18480e185a1, -- 물가
  0xe18486e185aee186afe18480e185a5e186ab, -- 물건
  0xe18486e185aee186afe18480e185a7e186af, -- 물결
  0xe18486e185aee186afe18480e185a9e18480e185b5, -- 물고기
  0xe18486e185aee186afe18485e185a9e186ab, -- 물론
  0xe18486e185aee186afe18485e185b5e18492e185a1e186a8, -- 물리학
  0xe18486e185aee186afe1848be185b3e186b7, -- 물음
  0xe18486e185aee186afe1848ce185b5e186af, -- 물질
  0xe18486e185aee186afe1848ee185a6, -- 물체
  0xe18486e185b5e18480e185aee186a8, -- 미국
  0xe18486e185b5e18483e185b5e1848be185a5, -- 미디어
  0xe18486e185b5e18489e185a1e1848be185b5e186af, -- 미사일
  0xe18486e185b5e18489e185aee186af, -- 미술
  0xe18486e185b5e1848be185a7e186a8, -- 미역
  0xe18486e185b5e1848be185ade186bce18489e185b5e186af, -- 미용실
  0xe18486e185b5e1848be185aee186b7, -- 미움
  0xe18486e185b5e1848be185b5e186ab, -- 미인
  0xe18486e185b5e18490e185b5e186bc, -- 미팅
  0xe18486e185b5e18492e185a9e186ab, -- 미혼
  0xe18486e185b5e186abe18480e185a1e186ab, -- 민간
  0xe18486e185b5e186abe1848ce185a9e186a8, -- 민족
  0xe18486e185b5e186abe1848ce185ae, -- 민주
  0xe18486e185b5e186aee1848be185b3e186b7, -- 믿음
  0xe18486e185b5e186afe18480e185a1e18485e185ae, -- 밀가루
  0xe18486e185b5e186afe18485e185b5e18486e185b5e18490e185a5, -- 밀리미터
  0xe18486e185b5e18780e18487e185a1e18483e185a1e186a8, -- 밑바닥
  0xe18487e185a1e18480e185a1e1848ce185b5, -- 바가지
  0xe18487e185a1e18480e185aee18482e185b5, -- 바구니
  0xe18487e185a1e18482e185a1e18482e185a1, -- 바나나
  0xe18487e185a1e18482e185b3e186af, -- 바늘
  0xe18487e185a1e18483e185a1e186a8, -- 바닥
  0xe18487e185a1e18483e185a1e186bae18480e185a1, -- 바닷가
  0xe18487e185a1e18485e185a1e186b7, -- 바람
  0xe18487e185a1e1848be185b5e18485e185a5e18489e185b3, -- 바이러스
  0xe18487e185a1e18490e185a1e186bc, -- 바탕
  0xe18487e185a1e186a8e18486e185aee186afe18480e185aae186ab, -- 박물관
  0xe18487e185a1e186a8e18489e185a1, -- 박사
  0xe18487e185a1e186a8e18489e185ae, -- 박수
  0xe18487e185a1e186abe18483e185a2, -- 반대
  0xe18487e185a1e186abe18483e185b3e18489e185b5, -- 반드시
  0xe18487e185a1e186abe18486e185a1e186af, -- 반말
  0xe18487e185a1e186abe18487e185a1e186af, -- 반발
  0xe18487e185a1e186abe18489e185a5e186bc, -- 반성
  0xe18487e185a1e186abe1848be185b3e186bc, -- 반응
  0xe18487e185a1e186abe1848ce185a1e186bc, -- 반장
  0xe18487e185a1e186abe1848ce185aee186a8, -- 반죽
  0xe18487e185a1e186abe1848ce185b5, -- 반지
  0xe18487e185a1e186abe1848ee185a1e186ab, -- 반찬
  0xe18487e185a1e186aee1848ee185b5e186b7, -- 받침
  0xe18487e185a1e186afe18480e185a1e18485e185a1e186a8, -- 발가락
  0xe18487e185a1e186afe18480e185a5e186afe1848be185b3e186b7, -- 발걸음
  0xe18487e185a1e186afe18480e185a7e186ab, -- 발견
  0xe18487e185a1e186afe18483e185a1e186af, -- 발달
  0xe18487e185a1e186afe18485e185a6, -- 발레
  0xe18487e185a1e186afe18486e185a9e186a8, -- 발목
  0xe18487e185a1e186afe18487e185a1e18483e185a1e186a8, -- 발바닥
  0xe18487e185a1e186afe18489e185a2e186bc, -- 발생
  0xe18487e185a1e186afe1848be185b3e186b7, -- 발음
  0xe18487e185a1e186afe1848ce185a1e18480e185aee186a8, -- 발자국
  0xe18487e185a1e186afe1848ce185a5e186ab, -- 발전
  0xe18487e185a1e186afe18490e185a9e186b8, -- 발톱
  0xe18487e185a1e186afe18491e185ad, -- 발표
  0xe18487e185a1e186b7e18492e185a1e18482e185b3e186af, -- 밤하늘
  0xe18487e185a1e186b8e18480e185b3e18485e185b3e186ba, -- 밥그릇
  0xe18487e185a1e186b8e18486e185a1e186ba, -- 밥맛
  0xe18487e185a1e186b8e18489e185a1e186bc, -- 밥상
  0xe18487e185a1e186b8e18489e185a9e18780, -- 밥솥
  0xe18487e185a1e186bce18480e185b3e186b7, -- 방금
  0xe18487e185a1e186bce18486e185a7e186ab, -- 방면
  0xe18487e185a1e186bce18486e185aee186ab, -- 방문
  0xe18487e185a1e186bce18487e185a1e18483e185a1e186a8, -- 방바닥
  0xe18487e185a1e186bce18487e185a5e186b8, -- 방법
  0xe18487e185a1e186bce18489e185a9e186bc, -- 방송
  0xe18487e185a1e186bce18489e185b5e186a8, -- 방식
  0xe18487e185a1e186bce1848be185a1e186ab, -- 방안
  0xe18487e185a1e186bce1848be185aee186af, -- 방울
  0xe18487e185a1e186bce1848ce185b5, -- 방지
  0xe18487e185a1e186bce18492e185a1e186a8, -- 방학
  0xe18487e185a1e186bce18492e185a2, -- 방해
  0xe18487e185a1e186bce18492e185a3e186bc, -- 방향
  0xe18487e185a2e18480e185a7e186bc, -- 배경
  0xe18487e185a2e18481e185a9e186b8, -- 배꼽
  0xe18487e185a2e18483e185a1e186af, -- 배달
  0xe18487e185a2e18483e185b3e18486e185b5e186abe18490e185a5e186ab, -- 배드민턴
  0xe18487e185a2e186a8e18483e185aee18489e185a1e186ab, -- 백두산
  0xe18487e185a2e186a8e18489e185a2e186a8, -- 백색
  0xe18487e185a2e186a8e18489e185a5e186bc, -- 백성
  0xe18487e185a2e186a8e1848be185b5e186ab, -- 백인
  0xe18487e185a2e186a8e1848ce185a6, -- 백제
  0xe18487e185a2e186a8e18492e185aae1848ce185a5e186b7, -- 백화점
  0xe18487e185a5e18485e185b3e186ba, -- 버릇
  0xe18487e185a5e18489e185a5e186ba, -- 버섯
  0xe18487e185a5e18490e185b3e186ab, -- 버튼
  0xe18487e185a5e186abe18480e185a2, -- 번개
  0xe18487e185a5e186abe1848be185a7e186a8, -- 번역
  0xe18487e185a5e186abe1848ce185b5, -- 번지
  0xe18487e185a5e186abe18492e185a9, -- 번호
  0xe18487e185a5e186afe18480e185b3e186b7, -- 벌금
  0xe18487e185a5e186afe18485e185a6, -- 벌레
  0xe18487e185a5e186afe1848ae185a5, -- 벌써
  0xe18487e185a5e186b7e1848be185b1, -- 범위
  0xe18487e185a5e186b7e1848be185b5e186ab, -- 범인
  0xe18487e185a5e186b7e1848ce185ac, -- 범죄
  0xe18487e185a5e186b8e18485e185b2e186af, -- 법률
  0xe18487e185a5e186b8e1848be185afe186ab, -- 법원
  0xe18487e185a5e186b8e1848ce185a5e186a8, -- 법적
  0xe18487e185a5e186b8e1848ee185b5e186a8, -- 법칙
  0xe18487e185a6e1848be185b5e1848ce185b5e186bc, -- 베이징
  0xe18487e185a6e186afe18490e185b3, -- 벨트
  0xe18487e185a7e186abe18480e185a7e186bc, -- 변경
  0xe18487e185a7e186abe18483e185a9e186bc, -- 변동
  0xe18487e185a7e186abe18486e185a7e186bc, -- 변명
  0xe18487e185a7e186abe18489e185b5e186ab, -- 변신
  0xe18487e185a7e186abe18492e185a9e18489e185a1, -- 변호사
  0xe18487e185a7e186abe18492e185aa, -- 변화
  0xe18487e185a7e186afe18483e185a9, -- 별도
  0xe18487e185a7e186afe18486e185a7e186bc, -- 별명
  0xe18487e185a7e186afe1848be185b5e186af, -- 별일
  0xe18487e185a7e186bce18489e185b5e186af, -- 병실
  0xe18487e185a7e186bce1848be185a1e18485e185b5, -- 병아리
  0xe18487e185a7e186bce1848be185afe186ab, -- 병원
  0xe18487e185a9e18480e185aae186ab, -- 보관
  0xe18487e185a9e18482e185a5e18489e185b3, -- 보너스
  0xe18487e185a9e18485e185a1e18489e185a2e186a8, -- 보라색
  0xe18487e185a9e18485e185a1e186b7, -- 보람
  0xe18487e185a9e18485e185b3e186b7, -- 보름
  0xe18487e185a9e18489e185a1e186bc, -- 보상
  0xe18487e185a9e1848be185a1e186ab, -- 보안
  0xe18487e185a9e1848ce185a1e18480e185b5, -- 보자기
  0xe18487e185a9e1848ce185a1e186bc, -- 보장
  0xe18487e185a9e1848ce185a5e186ab, -- 보전
  0xe18487e185a9e1848ce185a9e186ab, -- 보존
  0xe18487e185a9e18490e185a9e186bc, -- 보통
  0xe18487e185a9e18491e185a7e186abe1848ce185a5e186a8, -- 보편적
  0xe18487e185a9e18492e185a5e186b7, -- 보험
  0xe18487e185a9e186a8e18483e185a9, -- 복도
  0xe18487e185a9e186a8e18489e185a1, -- 복사
  0xe18487e185a9e186a8e18489e185aee186bce1848be185a1, -- 복숭아
  0xe18487e185a9e186a8e18489e185b3e186b8, -- 복습
  0xe18487e185a9e186a9e1848be185b3e186b7, -- 볶음
  0xe18487e185a9e186abe18480e185a7e186a8e1848ce185a5e186a8, -- 본격적
  0xe18487e185a9e186abe18485e185a2, -- 본래
  0xe18487e185a9e186abe18487e185ae, -- 본부
  0xe18487e185a9e186abe18489e185a1, -- 본사
  0xe18487e185a9e186abe18489e185a5e186bc, -- 본성
  0xe18487e185a9e186abe1848be185b5e186ab, -- 본인
  0xe18487e185a9e186abe1848ce185b5e186af, -- 본질
  0xe18487e185a9e186afe18491e185a6e186ab, -- 볼펜
  0xe18487e185a9e186bce18489e185a1, -- 봉사
  0xe18487e185a9e186bce1848ce185b5, -- 봉지
  0xe18487e185a9e186bce18490e185ae, -- 봉투
  0xe18487e185aee18480e185b3e186ab, -- 부근
  0xe18487e185aee18481e185b3e18485e185a5e1848be185aee186b7, -- 부끄러움
  0xe18487e185aee18483e185a1e186b7, -- 부담
  0xe18487e185aee18483e185a9e186bce18489e185a1e186ab, -- 부동산
  0xe18487e185aee18486e185aee186ab, -- 부문
  0xe18487e185aee18487e185aee186ab, -- 부분
  0xe18487e185aee18489e185a1e186ab, -- 부산
  0xe18487e185aee18489e185a1e186bc, -- 부상
  0xe18487e185aee1848be185a5e186bf, -- 부엌
  0xe18487e185aee1848be185b5e186ab, -- 부인
  0xe18487e185aee1848ce185a1e186a8e1848be185ade186bc, -- 부작용
  0xe18487e185aee1848ce185a1e186bc, -- 부장
  0xe18487e185aee1848ce185a5e186bc, -- 부정
  0xe18487e185aee1848ce185a9e186a8, -- 부족
  0xe18487e185aee1848ce185b5e18485e185a5e186abe18492e185b5, -- 부지런히
  0xe18487e185aee1848ee185b5e186ab, -- 부친
  0xe18487e185aee18490e185a1e186a8, -- 부탁
  0xe18487e185aee18491e185aee186b7, -- 부품
  0xe18487e185aee18492e185ace1848ce185a1e186bc, -- 부회장
  0xe18487e185aee186a8e18487e185ae, -- 북부
  0xe18487e185aee186a8e18492e185a1e186ab, -- 북한
  0xe18487e185aee186abe18482e185a9, -- 분노
  0xe18487e185aee186abe18485e185a3e186bc, -- 분량
  0xe18487e185aee186abe18485e185b5, -- 분리
  0xe18487e185aee186abe18486e185a7e186bc, -- 분명
  0xe18487e185aee186abe18489e185a5e186a8, -- 분석
  0xe18487e185aee186abe1848be185a3, -- 분야
  0xe18487e185aee186abe1848be185b1e18480e185b5, -- 분위기
  0xe18487e185aee186abe18491e185b5e186af, -- 분필
  0xe18487e185aee186abe18492e185a9e186bce18489e185a2e186a8, -- 분홍색
  0xe18487e185aee186afe18480e185a9e18480e185b5, -- 불고기
  0xe18487e185aee186afe18480e185aa, -- 불과
  0xe18487e185aee186afe18480e185ad, -- 불교
  0xe18487e185aee186afe18481e185a9e186be, -- 불꽃
  0xe18487e185aee186afe18486e185a1e186ab, -- 불만
  0xe18487e185aee186afe18487e185a5e186b8, -- 불법
  0xe18487e185aee186afe18487e185b5e186be, -- 불빛
  0xe18487e185aee186afe1848be185a1e186ab, -- 불안
  0xe18487e185aee186afe1848be185b5e1848be185b5e186a8, -- 불이익
  0xe18487e185aee186afe18492e185a2e186bc, -- 불행
  0xe18487e185b3e18485e185a2e186abe18483e185b3, -- 브랜드
  0xe18487e185b5e18480e185b3e186a8, -- 비극
  0xe18487e185b5e18482e185a1e186ab, -- 비난
  0xe18487e185b5e18482e185b5e186af, -- 비닐
  0xe18487e185b5e18483e185aee186afe18480e185b5, -- 비둘기
  0xe18487e185b5e18483e185b5e1848be185a9, -- 비디오
  0xe18487e185b5e18485e185a9e18489e185a9, -- 비로소
  0xe18487e185b5e18486e185a1e186ab, -- 비만
  0xe18487e185b5e18486e185a7e186bc, -- 비명
  0xe18487e185b5e18486e185b5e186af, -- 비밀
  0xe18487e185b5e18487e185a1e18485e185a1e186b7, -- 비바람
  0xe18487e185b5e18487e185b5e186b7e18487e185a1e186b8, -- 비빔밥
  0xe18487e185b5e18489e185a1e186bc, -- 비상
  0xe18487e185b5e1848be185ade186bc, -- 비용
  0xe18487e185b5e1848be185b2e186af, -- 비율
  0xe18487e185b5e1848ce185aee186bc, -- 비중
  0xe18487e185b5e18490e185a1e18486e185b5e186ab, -- 비타민
  0xe18487e185b5e18491e185a1e186ab, -- 비판
  0xe18487e185b5e186afe18483e185b5e186bc, -- 빌딩
  0xe18487e185b5e186bae18486e185aee186af, -- 빗물
  0xe18487e185b5e186bae18487e185a1e186bce1848be185aee186af, -- 빗방울
  0xe18487e185b5e186bae1848ce185aee186afe18480e185b5, -- 빗줄기
  0xe18487e185b5e186bee18481e185a1e186af, -- 빛깔
  0xe18488e185a1e186afe18480e185a1e186abe18489e185a2e186a8, -- 빨간색
  0xe18488e185a1e186afe18485e185a2, -- 빨래
  0xe18488e185a1e186afe18485e185b5, -- 빨리
  0xe18489e185a1e18480e185a5e186ab, -- 사건
  0xe18489e185a1e18480e185a8e1848ce185a5e186af, -- 사계절
  0xe18489e185a1e18482e185a1e1848be185b5, -- 사나이
  0xe18489e185a1e18482e185a3e186bc, -- 사냥
  0xe18489e185a1e18485e185a1e186b7, -- 사람
  0xe18489e185a1e18485e185a1e186bc, -- 사랑
  0xe18489e185a1e18485e185b5e186b8, -- 사립
  0xe18489e185a1e18486e185a9e18482e185b5e186b7, -- 사모님
  0xe18489e185a1e18486e185aee186af, -- 사물
  0xe18489e185a1e18487e185a1e186bc, -- 사방
  0xe18489e185a1e18489e185a1e186bc, -- 사상
  0xe18489e185a1e18489e185a2e186bce18492e185aae186af, -- 사생활
  0xe18489e185a1e18489e185a5e186af, -- 사설
  0xe18489e185a1e18489e185b3e186b7, -- 사슴
  0xe18489e185a1e18489e185b5e186af, -- 사실
  0xe18489e185a1e1848be185a5e186b8, -- 사업
  0xe18489e185a1e1848be185ade186bc, -- 사용
  0xe18489e185a1e1848be185afe186af, -- 사월
  0xe18489e185a1e1848ce185a1e186bc, -- 사장
  0xe18489e185a1e1848ce185a5e186ab, -- 사전
  0xe18489e185a1e1848ce185b5e186ab, -- 사진
  0xe18489e185a1e1848ee185a9e186ab, -- 사촌
  0xe18489e185a1e1848ee185aee186abe18480e185b5, -- 사춘기
  0xe18489e185a1e18490e185a1e186bc, -- 사탕
  0xe18489e185a1e18490e185aee18485e185b5, -- 사투리
  0xe18489e185a1e18492e185b3e186af, -- 사흘
  0xe18489e185a1e186abe18480e185b5e186af, -- 산길
  0xe18489e185a1e186abe18487e185aee1848be185b5e186abe18480e185aa, -- 산부인과
  0xe18489e185a1e186abe1848be185a5e186b8, -- 산업
  0xe18489e185a1e186abe1848ee185a2e186a8, -- 산책
  0xe18489e185a1e186afe18485e185b5e186b7, -- 살림
  0xe18489e185a1e186afe1848be185b5e186ab, -- 살인
  0xe18489e185a1e186afe1848de185a1e186a8, -- 살짝
  0xe18489e185a1e186b7e18480e185a8e18490e185a1e186bc, -- 삼계탕
  0xe18489e185a1e186b7e18480e185aee186a8, -- 삼국
  0xe18489e185a1e186b7e18489e185b5e186b8, -- 삼십
  0xe18489e185a1e186b7e1848be185afe186af, -- 삼월
  0xe18489e185a1e186b7e1848ee185a9e186ab, -- 삼촌
  0xe18489e185a1e186bce18480e185aae186ab, -- 상관
  0xe18489e185a1e186bce18480e185b3e186b7, -- 상금
  0xe18489e185a1e186bce18483e185a2, -- 상대
  0xe18489e185a1e186bce18485e185b2, -- 상류
  0xe18489e185a1e186bce18487e185a1e186abe18480e185b5, -- 상반기
  0xe18489e185a1e186bce18489e185a1e186bc, -- 상상
  0xe18489e185a1e186bce18489e185b5e186a8, -- 상식
  0xe18489e185a1e186bce1848be185a5e186b8, -- 상업
  0xe18489e185a1e186bce1848be185b5e186ab, -- 상인
  0xe18489e185a1e186bce1848ce185a1, -- 상자
  0xe18489e185a1e186bce1848ce185a5e186b7, -- 상점
  0xe18489e185a1e186bce1848ee185a5, -- 상처
  0xe18489e185a1e186bce1848ee185ae, -- 상추
  0xe18489e185a1e186bce18490e185a2, -- 상태
  0xe18489e185a1e186bce18491e185ad, -- 상표
  0xe18489e185a1e186bce18491e185aee186b7, -- 상품
  0xe18489e185a1e186bce18492e185aae186bc, -- 상황
  0xe18489e185a2e18487e185a7e186a8, -- 새벽
  0xe18489e185a2e186a8e18481e185a1e186af, -- 색깔
  0xe18489e185a2e186a8e1848be185a7e186abe18491e185b5e186af, -- 색연필
  0xe18489e185a2e186bce18480e185a1e186a8, -- 생각
  0xe18489e185a2e186bce18486e185a7e186bc, -- 생명
  0xe18489e185a2e186bce18486e185aee186af, -- 생물
  0xe18489e185a2e186bce18487e185a1e186bce18489e185a9e186bc, -- 생방송
  0xe18489e185a2e186bce18489e185a1e186ab, -- 생산
  0xe18489e185a2e186bce18489e185a5e186ab, -- 생선
  0xe18489e185a2e186bce18489e185b5e186ab, -- 생신
  0xe18489e185a2e186bce1848be185b5e186af, -- 생일
  0xe18489e185a2e186bce18492e185aae186af, -- 생활
  0xe18489e185a5e18485e185a1e186b8, -- 서랍
  0xe18489e185a5e18485e185b3e186ab, -- 서른
  0xe18489e185a5e18486e185a7e186bc, -- 서명
  0xe18489e185a5e18486e185b5e186ab, -- 서민
  0xe18489e185a5e18487e185b5e18489e185b3, -- 서비스
  0xe18489e185a5e1848be185a3e186bc, -- 서양
  0xe18489e185a5e1848be185aee186af, -- 서울
  0xe18489e185a5e1848ce185a5e186a8, -- 서적
  0xe18489e185a5e1848ce185a5e186b7, -- 서점
  0xe18489e185a5e1848de185a9e186a8, -- 서쪽
  0xe18489e185a5e1848fe185b3e186af, -- 서클
  0xe18489e185a5e186a8e18489e185a1, -- 석사
  0xe18489e185a5e186a8e1848be185b2, -- 석유
  0xe18489e185a5e186abe18480e185a5, -- 선거
  0xe18489e185a5e186abe18486e185aee186af, -- 선물
  0xe18489e185a5e186abe18487e185a2, -- 선배
  0xe18489e185a5e186abe18489e185a2e186bc, -- 선생
  0xe18489e185a5e186abe18489e185ae, -- 선수
  0xe18489e185a5e186abe1848be185afe186ab, -- 선원
  0xe18489e185a5e186abe1848ce185a1e186bc, -- 선장
  0xe18489e185a5e186abe1848ce185a5e186ab, -- 선전
  0xe18489e185a5e186abe18490e185a2e186a8, -- 선택
  0xe18489e185a5e186abe18491e185aee186bce18480e185b5, -- 선풍기
  0xe18489e185a5e186afe18480e185a5e1848ce185b5, -- 설거지
  0xe18489e185a5e186afe18482e185a1e186af, -- 설날
  0xe18489e185a5e186afe18485e185a5e186bce18490e185a1e186bc, -- 설렁탕
  0xe18489e185a5e186afe18486e185a7e186bc, -- 설명
  0xe18489e185a5e186afe18486e185aee186ab, -- 설문
  0xe18489e185a5e186afe18489e185a1, -- 설사
  0xe18489e185a5e186afe1848be185a1e186a8e18489e185a1e186ab, -- 설악산
  0xe18489e185a5e186afe1848ee185b5, -- 설치
  0xe18489e185a5e186afe18490e185a1e186bc, -- 설탕
  0xe18489e185a5e186b8e1848ae185b5, -- 섭씨
  0xe18489e185a5e186bce18480e185a9e186bc, -- 성공
  0xe18489e185a5e186bce18483e185a1e186bc, -- 성당
  0xe18489e185a5e186bce18486e185a7e186bc, -- 성명
  0xe18489e185a5e186bce18487e185a7e186af, -- 성별
  0xe18489e185a5e186bce1848be185b5e186ab, -- 성인
  0xe18489e185a5e186bce1848ce185a1e186bc, -- 성장
  0xe18489e185a5e186bce1848ce185a5e186a8, -- 성적
  0xe18489e185a5e186bce1848ce185b5e186af, -- 성질
  0xe18489e185a5e186bce18492e185a1e186b7, -- 성함
  0xe18489e185a6e18480e185b3e186b7, -- 세금
  0xe18489e185a6e18486e185b5e18482e185a1, -- 세미나
  0xe18489e185a6e18489e185a1e186bc, -- 세상
  0xe18489e185a6e1848be185afe186af, -- 세월
  0xe18489e185a6e1848ce185a9e186bce18483e185a2e1848be185aae186bc, -- 세종대왕
  0xe18489e185a6e18490e185a1e186a8, -- 세탁
  0xe18489e185a6e186abe18490e185a5, -- 센터
  0xe18489e185a6e186abe18490e185b5e18486e185b5e18490e185a5, -- 센티미터
  0xe18489e185a6e186bae1848de185a2, -- 셋째
  0xe18489e185a9e18480e185b2e18486e185a9, -- 소규모
  0xe18489e185a9e18480e185b3e186a8e1848ce185a5e186a8, -- 소극적
  0xe18489e185a9e18480e185b3e186b7, -- 소금
  0xe18489e185a9e18482e185a1e18480e185b5, -- 소나기
  0xe18489e185a9e18482e185a7e186ab, -- 소년
  0xe18489e185a9e18483e185b3e186a8, -- 소득
  0xe18489e185a9e18486e185a1e186bc, -- 소망
  0xe18489e185a9e18486e185aee186ab, -- 소문
  0xe18489e185a9e18489e185a5e186af, -- 소설
  0xe18489e185a9e18489e185a9e186a8, -- 소속
  0xe18489e185a9e1848be185a1e18480e185aa, -- 소아과
  0xe18489e185a9e1848be185ade186bc, -- 소용
  0xe18489e185a9e1848be185afe186ab, -- 소원
  0xe18489e185a9e1848be185b3e186b7, -- 소음
  0xe18489e185a9e1848ce185aee186bce18492e185b5, -- 소중히
  0xe18489e185a9e1848ce185b5e18491e185aee186b7, -- 소지품
  0xe18489e185a9e1848ce185b5e186af, -- 소질
  0xe18489e185a9e18491e185aee186bc, -- 소풍
  0xe18489e185a9e18492e185a7e186bc, -- 소형
  0xe18489e185a9e186a8e18483e185a1e186b7, -- 속담
  0xe18489e185a9e186a8e18483e185a9, -- 속도
  0xe18489e185a9e186a8e1848be185a9e186ba, -- 속옷
  0xe18489e185a9e186abe18480e185a1e18485e185a1e186a8, -- 손가락
  0xe18489e185a9e186abe18480e185b5e186af, -- 손길
  0xe18489e185a9e186abe18482e185a7, -- 손녀
  0xe18489e185a9e186abe18482e185b5e186b7, -- 손님
  0xe18489e185a9e186abe18483e185b3e186bc, -- 손등
  0xe18489e185a9e186abe18486e185a9e186a8, -- 손목
  0xe18489e185a9e186abe18488e185a7e186a8, -- 손뼉
  0xe18489e185a9e186abe18489e185b5e186af, -- 손실
  0xe18489e185a9e186abe1848ce185b5e186af, -- 손질
  0xe18489e185a9e186abe18490e185a9e186b8, -- 손톱
  0xe18489e185a9e186abe18492e185a2, -- 손해
  0xe18489e185a9e186afe1848ce185b5e186a8e18492e185b5, -- 솔직히
  0xe18489e185a9e186b7e1848ae185b5, -- 솜씨
  0xe18489e185a9e186bce1848be185a1e1848ce185b5, -- 송아지
  0xe18489e185a9e186bce1848be185b5, -- 송이
  0xe18489e185a9e186bce18491e185a7e186ab, -- 송편
  0xe18489e185ace18480e185a9e18480e185b5, -- 쇠고기
  0xe18489e185ade18491e185b5e186bc, -- 쇼핑
  0xe18489e185aee18480e185a5e186ab, -- 수건
  0xe18489e185aee18482e185a7e186ab, -- 수년
  0xe18489e185aee18483e185a1e186ab, -- 수단
  0xe18489e185aee18483e185a9e186bae18486e185aee186af, -- 수돗물
  0xe18489e185aee18483e185a9e186bce1848ce185a5e186a8, -- 수동적
  0xe18489e185aee18486e185a7e186ab, -- 수면
  0xe18489e185aee18486e185a7e186bc, -- 수명
  0xe18489e185aee18487e185a1e186a8, -- 수박
  0xe18489e185aee18489e185a1e186bc, -- 수상
  0xe18489e185aee18489e185a5e186a8, -- 수석
  0xe18489e185aee18489e185aee186af, -- 수술
  0xe18489e185aee18489e185b5e18485e185a9, -- 수시로
  0xe18489e185aee1848be185a5e186b8, -- 수업
  0xe18489e185aee1848be185a7e186b7, -- 수염
  0xe18489e185aee1848be185a7e186bc, -- 수영
  0xe18489e185aee1848be185b5e186b8, -- 수입
  0xe18489e185aee1848ce185aee186ab, -- 수준
  0xe18489e185aee1848ce185b5e186b8, -- 수집
  0xe18489e185aee1848ee185aee186af, -- 수출
  0xe18489e185aee1848fe185a5e186ba, -- 수컷
  0xe18489e185aee18491e185b5e186af, -- 수필
  0xe18489e185aee18492e185a1e186a8, -- 수학
  0xe18489e185aee18492e185a5e186b7e18489e185a2e186bc, -- 수험생
  0xe18489e185aee18492e185aae18480e185b5, -- 수화기
  0xe18489e185aee186a8e18482e185a7, -- 숙녀
  0xe18489e185aee186a8e18489e185a9, -- 숙소
  0xe18489e185aee186a8e1848ce185a6, -- 숙제
  0xe18489e185aee186abe18480e185a1e186ab, -- 순간
  0xe18489e185aee186abe18489e185a5, -- 순서
  0xe18489e185aee186abe18489e185ae, -- 순수
  0xe18489e185aee186abe18489e185b5e186a8e18480e185a1e186ab, -- 순식간
  0xe18489e185aee186abe1848be185b1, -- 순위
  0xe18489e185aee186aee18480e185a1e18485e185a1e186a8, -- 숟가락
  0xe18489e185aee186afe18487e185a7e186bc, -- 술병
  0xe18489e185aee186afe1848ce185b5e186b8, -- 술집
  0xe18489e185aee186bae1848ce185a1, -- 숫자
  0xe18489e185b3e18482e185b5e186b7, -- 스님
  0xe18489e185b3e18486e185aee186af, -- 스물
  0xe18489e185b3e18489e185b3e18485e185a9, -- 스스로
  0xe18489e185b3e18489e185b3e186bc, -- 스승
  0xe18489e185b3e1848be185b0e18490e185a5, -- 스웨터
  0xe18489e185b3e1848be185b1e1848ee185b5, -- 스위치
  0xe18489e185b3e1848fe185a6e1848be185b5e18490e185b3, -- 스케이트
  0xe18489e185b3e18490e185b2e18483e185b5e1848be185a9, -- 스튜디오
  0xe18489e185b3e18490e185b3e18485e185a6e18489e185b3, -- 스트레스
  0xe18489e185b3e18491e185a9e1848ee185b3, -- 스포츠
  0xe18489e185b3e186afe1848de185a5e186a8, -- 슬쩍
  0xe18489e185b3e186afe18491e185b3e186b7, -- 슬픔
  0xe18489e185b3e186b8e18480e185aae186ab, -- 습관
  0xe18489e185b3e186b8e18480e185b5, -- 습기
  0xe18489e185b3e186bce18480e185a2e186a8, -- 승객
  0xe18489e185b3e186bce18485e185b5, -- 승리
  0xe18489e185b3e186bce18487e185ae, -- 승부
  0xe18489e185b3e186bce1848be185ade186bce1848ee185a1, -- 승용차
  0xe18489e185b3e186bce1848ce185b5e186ab, -- 승진
  0xe18489e185b5e18480e185a1e186a8, -- 시각
  0xe18489e185b5e18480e185a1e186ab, -- 시간
  0xe18489e185b5e18480e185a9e186af, -- 시골
  0xe18489e185b5e18480e185b3e186b7e1848ee185b5, -- 시금치
  0xe18489e185b5e18482e185a1e18485e185b5e1848be185a9, -- 시나리오
  0xe18489e185b5e18483e185a2e186a8, -- 시댁
  0xe18489e185b5e18485e185b5e1848ce185b3, -- 시리즈
  0xe18489e185b5e18486e185a6e186abe18490e185b3, -- 시멘트
  0xe18489e185b5e18486e185b5e186ab, -- 시민
  0xe18489e185b5e18487e185aee18486e185a9, -- 시부모
  0xe18489e185b5e18489e185a5e186ab, -- 시선
  0xe18489e185b5e18489e185a5e186af, -- 시설
  0xe18489e185b5e18489e185b3e18490e185a6e186b7, -- 시스템
  0xe18489e185b5e1848be185a1e18487e185a5e1848ce185b5, -- 시아버지
  0xe18489e185b5e1848be185a5e18486e185a5e18482e185b5, -- 시어머니
  0xe18489e185b5e1848be185afe186af, -- 시월
  0xe18489e185b5e1848be185b5e186ab, -- 시인
  0xe18489e185b5e1848be185b5e186af, -- 시일
  0xe18489e185b5e1848ce185a1e186a8, -- 시작
  0xe18489e185b5e1848ce185a1e186bc, -- 시장
  0xe18489e185b5e1848ce185a5e186af, -- 시절
  0xe18489e185b5e1848ce185a5e186b7, -- 시점
  0xe18489e185b5e1848ce185aee186bc, -- 시중
  0xe18489e185b5e1848ce185b3e186ab, -- 시즌
  0xe18489e185b5e1848ce185b5e186b8, -- 시집
  0xe18489e185b5e1848ee185a5e186bc, -- 시청
  0xe18489e185b5e18492e185a1e186b8, -- 시합
  0xe18489e185b5e18492e185a5e186b7, -- 시험
  0xe18489e185b5e186a8e18480e185ae, -- 식구
  0xe18489e185b5e186a8e18480e185b5, -- 식기
  0xe18489e185b5e186a8e18483e185a1e186bc, -- 식당
  0xe18489e185b5e186a8e18485e185a3e186bc, -- 식량
  0xe18489e185b5e186a8e18485e185ade18491e185aee186b7, -- 식료품
  0xe18489e185b5e186a8e18486e185aee186af, -- 식물
  0xe18489e185b5e186a8e18488e185a1e186bc, -- 식빵
  0xe18489e185b5e186a8e18489e185a1, -- 식사
  0xe18489e185b5e186a8e18489e185a2e186bce18492e185aae186af, -- 식생활
  0xe18489e185b5e186a8e1848ee185a9, -- 식초
  0xe18489e185b5e186a8e18490e185a1e186a8, -- 식탁
  0xe18489e185b5e186a8e18491e185aee186b7, -- 식품
  0xe18489e185b5e186abe18480e185a9, -- 신고
  0xe18489e185b5e186abe18480e185b2, -- 신규
  0xe18489e185b5e186abe18482e185a7e186b7, -- 신념
  0xe18489e185b5e186abe18486e185aee186ab, -- 신문
  0xe18489e185b5e186abe18487e185a1e186af, -- 신발
  0xe18489e185b5e186abe18487e185b5, -- 신비
  0xe18489e185b5e186abe18489e185a1, -- 신사
  0xe18489e185b5e186abe18489e185a6, -- 신세
  0xe18489e185b5e186abe1848be185ade186bc, -- 신용
  0xe18489e185b5e186abe1848ce185a6e18491e185aee186b7, -- 신제품
  0xe18489e185b5e186abe1848ee185a5e186bc, -- 신청
  0xe18489e185b5e186abe1848ee185a6, -- 신체
  0xe18489e185b5e186abe18492e185aa, -- 신화
  0xe18489e185b5e186afe18480e185a1e186b7, -- 실감
  0xe18489e185b5e186afe18482e185a2, -- 실내
  0xe18489e185b5e186afe18485e185a7e186a8, -- 실력
  0xe18489e185b5e186afe18485e185a8, -- 실례
  0xe18489e185b5e186afe18486e185a1e186bc, -- 실망
  0xe18489e185b5e186afe18489e185ae, -- 실수
  0xe18489e185b5e186afe18489e185b3e186b8, -- 실습
  0xe18489e185b5e186afe18489e185b5, -- 실시
  0xe18489e185b5e186afe1848ce185a1e186bc, -- 실장
  0xe18489e185b5e186afe1848ce185a5e186bc, -- 실정
  0xe18489e185b5e186afe1848ce185b5e186afe1848ce185a5e186a8, -- 실질적
  0xe18489e185b5e186afe1848ee185a5e186ab, -- 실천
  0xe18489e185b5e186afe1848ee185a6, -- 실체
  0xe18489e185b5e186afe1848fe185a5e186ba, -- 실컷
  0xe18489e185b5e186afe18490e185a2, -- 실태
  0xe18489e185b5e186afe18491e185a2, -- 실패
  0xe18489e185b5e186afe18492e185a5e186b7, -- 실험
  0xe18489e185b5e186afe18492e185a7e186ab, -- 실현
  0xe18489e185b5e186b7e18485e185b5, -- 심리
  0xe18489e185b5e186b7e18487e185aee18485e185b3e186b7, -- 심부름
  0xe18489e185b5e186b7e18489e185a1, -- 심사
  0xe18489e185b5e186b7e1848ce185a1e186bc, -- 심장
  0xe18489e185b5e186b7e1848ce185a5e186bc, -- 심정
  0xe18489e185b5e186b7e18491e185a1e186ab, -- 심판
  0xe1848ae185a1e186bce18483e185aee186bce1848be185b5, -- 쌍둥이
  0xe1848ae185b5e18485e185b3e186b7, -- 씨름
  0xe1848ae185b5e1848be185a1e186ba, -- 씨앗
  0xe1848be185a1e18480e185a1e1848ae185b5, -- 아가씨
  0xe1848be185a1e18482e185a1e1848be185aee186abe18489e185a5, -- 아나운서
  0xe1848be185a1e18483e185b3e18482e185b5e186b7, -- 아드님
  0xe1848be185a1e18483e185b3e186af, -- 아들
  0xe1848be185a1e18489e185b1e1848be185aee186b7, -- 아쉬움
  0xe1848be185a1e18489e185b3e18491e185a1e186afe18490e185b3, -- 아스팔트
  0xe1848be185a1e18489e185b5e1848be185a1, -- 아시아
  0xe1848be185a1e1848be185aee186afe18485e185a5, -- 아울러
  0xe1848be185a1e1848ce185a5e1848ae185b5, -- 아저씨
  0xe1848be185a1e1848ce185aee186b7e18486e185a1, -- 아줌마
  0xe1848be185a1e1848ce185b5e186a8, -- 아직
  0xe1848be185a1e1848ee185b5e186b7, -- 아침
  0xe1848be185a1e18491e185a1e18490e185b3, -- 아파트
  0xe1848be185a1e18491e185b3e18485e185b5e1848fe185a1, -- 아프리카
  0xe1848be185a1e18491e185b3e186b7, -- 아픔
  0xe1848be185a1e18492e185a9e186b8, -- 아홉
  0xe1848be185a1e18492e185b3e186ab, -- 아흔
  0xe1848be185a1e186a8e18480e185b5, -- 악기
  0xe1848be185a1e186a8e18486e185a9e186bc, -- 악몽
  0xe1848be185a1e186a8e18489e185ae, -- 악수
  0xe1848be185a1e186abe18480e185a2, -- 안개
  0xe1848be185a1e186abe18480e185a7e186bc, -- 안경
  0xe1848be185a1e186abe18480e185aa, -- 안과
  0xe1848be185a1e186abe18482e185a2, -- 안내
  0xe1848be185a1e186abe18482e185a7e186bc, -- 안녕
  0xe1848be185a1e186abe18483e185a9e186bc, -- 안동
  0xe1848be185a1e186abe18487e185a1e186bc, -- 안방
  0xe1848be185a1e186abe18487e185ae, -- 안부
  0xe1848be185a1e186abe1848ce185ae, -- 안주
  0xe1848be185a1e186afe18485e185aee18486e185b5e18482e185b2e186b7, -- 알루미늄
  0xe1848be185a1e186afe1848fe185a9e1848be185a9e186af, -- 알코올
  0xe1848be185a1e186b7e18489e185b5, -- 암시
  0xe1848be185a1e186b7e1848fe185a5e186ba, -- 암컷
  0xe1848be185a1e186b8e18485e185a7e186a8, -- 압력
  0xe1848be185a1e18781e18482e185a1e186af, -- 앞날
  0xe1848be185a1e18781e18486e185aee186ab, -- 앞문
  0xe1848be185a2e1848be185b5e186ab, -- 애인
  0xe1848be185a2e1848ce185a5e186bc, -- 애정
  0xe1848be185a2e186a8e18489e185ae, -- 액수
  0xe1848be185a2e186afe18487e185a5e186b7, -- 앨범
  0xe1848be185a3e18480e185a1e186ab, -- 야간
  0xe1848be185a3e18483e185a1e186ab, -- 야단
  0xe1848be185a3e1848be185a9e186bc, -- 야옹
  0xe1848be185a3e186a8e18480e185a1e186ab, -- 약간
  0xe1848be185a3e186a8e18480e185aee186a8, -- 약국
  0xe1848be185a3e186a8e18489e185a9e186a8, -- 약속
  0xe1848be185a3e186a8e18489e185ae, -- 약수
  0xe1848be185a3e186a8e1848ce185a5e186b7, -- 약점
  0xe1848be185a3e186a8e18491e185aee186b7, -- 약품
  0xe1848be185a3e186a8e18492e185a9e186abe18482e185a7, -- 약혼녀
  0xe1848be185a3e186bce18482e185a7e186b7, -- 양념
  0xe1848be185a3e186bce18485e185a7e186a8, -- 양력
  0xe1848be185a3e186bce18486e185a1e186af, -- 양말
  0xe1848be185a3e186bce18487e185a2e1848ee185ae, -- 양배추
  0xe1848be185a3e186bce1848ce185ae, -- 양주
  0xe1848be185a3e186bce18491e185a1, -- 양파
  0xe1848be185a5e18483e185aee186b7, -- 어둠
  0xe1848be185a5e18485e185a7e1848be185aee186b7, -- 어려움
  0xe1848be185a5e18485e185b3e186ab, -- 어른
  0xe1848be185a5e1848ce185a6e186bae18487e185a1e186b7, -- 어젯밤
  0xe1848be185a5e1848de185a2e186bbe18483e185b3e186ab, -- 어쨌든
  0xe1848be185a5e1848de185a5e18483e185a1e18480e185a1, -- 어쩌다가
  0xe1848be185a5e1848de185a5e186abe1848ce185b5, -- 어쩐지
  0xe1848be185a5e186abe18482e185b5, -- 언니
  0xe1848be185a5e186abe18483e185a5e186a8, -- 언덕
  0xe1848be185a5e186abe18485e185a9e186ab, -- 언론
  0xe1848be185a5e186abe1848be185a5, -- 언어
  0xe1848be185a5e186afe18480e185aee186af, -- 얼굴
  0xe1848be185a5e186afe18485e185b3e186ab, -- 얼른
  0xe1848be185a5e186afe1848be185b3e186b7, -- 얼음
  0xe1848be185a5e186afe18491e185b5e186ba, -- 얼핏
  0xe1848be185a5e186b7e18486e185a1, -- 엄마
  0xe1848be185a5e186b8e18486e185ae, -- 업무
  0xe1848be185a5e186b8e1848ce185a9e186bc, -- 업종
  0xe1848be185a5e186b8e1848ee185a6, -- 업체
  0xe1848be185a5e186bce18483e185a5e186bce1848be185b5, -- 엉덩이
  0xe1848be185a5e186bce18486e185a1e186bc, -- 엉망
  0xe1848be185a5e186bce18490e185a5e18485e185b5, -- 엉터리
  0xe1848be185a5e186bde18480e185b3e1848ce185a6, -- 엊그제
  0xe1848be185a6e18482e185a5e1848ce185b5, -- 에너지
  0xe1848be185a6e1848be185a5e1848fe185a5e186ab, -- 에어컨
  0xe1848be185a6e186abe1848ce185b5e186ab, -- 엔진
  0xe1848be185a7e18480e185a5e186ab, -- 여건
  0xe1848be185a7e18480e185a9e18489e185a2e186bc, -- 여고생
  0xe1848be185a7e18480e185aae186ab, -- 여관
  0xe1848be185a7e18480e185aee186ab, -- 여군
  0xe1848be185a7e18480e185afe186ab, -- 여권
  0xe1848be185a7e18483e185a2e18489e185a2e186bc, -- 여대생
  0xe1848be185a7e18483e185a5e186b2, -- 여덟
  0xe1848be185a7e18483e185a9e186bce18489e185a2e186bc, -- 여동생
  0xe1848be185a7e18483e185b3e186ab, -- 여든
  0xe1848be185a7e18485e185a9e186ab, -- 여론
  0xe1848be185a7e18485e185b3e186b7, -- 여름
  0xe1848be185a7e18489e185a5e186ba, -- 여섯
  0xe1848be185a7e18489e185a5e186bc, -- 여성
  0xe1848be185a7e1848be185aae186bc, -- 여왕
  0xe1848be185a7e1848be185b5e186ab, -- 여인
  0xe1848be185a7e1848ce185a5e186abe18492e185b5, -- 여전히
  0xe1848be185a7e1848ce185b5e186a8e1848be185afe186ab, -- 여직원
  0xe1848be185a7e18492e185a1e186a8e18489e185a2e186bc, -- 여학생
  0xe1848be185a7e18492e185a2e186bc, -- 여행
  0xe1848be185a7e186a8e18489e185a1, -- 역사
  0xe1848be185a7e186a8e18489e185b5, -- 역시
  0xe1848be185a7e186a8e18492e185a1e186af, -- 역할
  0xe1848be185a7e186abe18480e185a7e186af, -- 연결
  0xe1848be185a7e186abe18480e185ae, -- 연구
  0xe1848be185a7e186abe18480e185b3e186a8, -- 연극
  0xe1848be185a7e186abe18480e185b5, -- 연기
  0xe1848be185a7e186abe18485e185a1e186a8, -- 연락
  0xe1848be185a7e186abe18489e185a5e186af, -- 연설
  0xe1848be185a7e186abe18489e185a6, -- 연세
  0xe1848be185a7e186abe18489e185a9e186a8, -- 연속
  0xe1848be185a7e186abe18489e185b3e186b8, -- 연습
  0xe1848be185a7e186abe1848be185a2, -- 연애
  0xe1848be185a7e186abe1848be185a8e1848be185b5e186ab, -- 연예인
  0xe1848be185a7e186abe1848be185b5e186ab, -- 연인
  0xe1848be185a7e186abe1848ce185a1e186bc, -- 연장
  0xe1848be185a7e186abe1848ce185ae, -- 연주
  0xe1848be185a7e186abe1848ee185aee186af, -- 연출
  0xe1848be185a7e186abe18491e185b5e186af, -- 연필
  0xe1848be185a7e186abe18492e185a1e186b8, -- 연합
  0xe1848be185a7e186abe18492e185b2, -- 연휴
  0xe1848be185a7e186afe18480e185b5, -- 열기
  0xe1848be185a7e186afe18486e185a2, -- 열매
  0xe1848be185a7e186afe18489e185ac, -- 열쇠
  0xe1848be185a7e186afe18489e185b5e186b7e18492e185b5, -- 열심히
  0xe1848be185a7e186afe1848ce185a5e186bc, -- 열정
  0xe1848be185a7e186afe1848ee185a1, -- 열차
  0xe1848be185a7e186afe18492e185b3e186af, -- 열흘
  0xe1848be185a7e186b7e18485e185a7, -- 염려
  0xe1848be185a7e186b8e18489e185a5, -- 엽서
  0xe1848be185a7e186bce18480e185aee186a8, -- 영국
  0xe1848be185a7e186bce18482e185a1e186b7, -- 영남
  0xe1848be185a7e186bce18489e185a1e186bc, -- 영상
  0xe1848be185a7e186bce1848be185a3e186bc, -- 영양
  0xe1848be185a7e186bce1848be185a7e186a8, -- 영역
  0xe1848be185a7e186bce1848be185aee186bc, -- 영웅
  0xe1848be185a7e186bce1848be185afe186abe18492e185b5, -- 영원히
  0xe1848be185a7e186bce18492e185a1, -- 영하
  0xe1848be185a7e186bce18492e185a3e186bc, -- 영향
  0xe1848be185a7e186bce18492e185a9e186ab, -- 영혼
  0xe1848be185a7e186bce18492e185aa, -- 영화
  0xe1848be185a7e18781e18480e185aee18485e185b5, -- 옆구리
  0xe1848be185a7e18781e18487e185a1e186bc, -- 옆방
  0xe1848be185a7e18781e1848ce185b5e186b8, -- 옆집
  0xe1848be185a8e18480e185a1e186b7, -- 예감
  0xe1848be185a8e18480e185b3e186b7, -- 예금
  0xe1848be185a8e18487e185a1e186bc, -- 예방
  0xe1848be185a8e18489e185a1e186ab, -- 예산
  0xe1848be185a8e18489e185a1e186bc, -- 예상
  0xe1848be185a8e18489e185a5e186ab, -- 예선
  0xe1848be185a8e18489e185aee186af, -- 예술
  0xe1848be185a8e18489e185b3e186b8, -- 예습
  0xe1848be185a8e18489e185b5e186a8e1848ce185a1e186bc, -- 예식장
  0xe1848be185a8e1848be185a3e186a8, -- 예약
  0xe1848be185a8e1848ce185a5e186ab, -- 예전
  0xe1848be185a8e1848ce185a5e186af, -- 예절
  0xe1848be185a8e1848ce185a5e186bc, -- 예정
  0xe1848be185a8e1848fe185a5e186abe18483e185a2, -- 예컨대
  0xe1848be185a8e186bae18482e185a1e186af, -- 옛날
  0xe1848be185a9e18482e185b3e186af, -- 오늘
  0xe1848be185a9e18485e185a1e186a8, -- 오락
  0xe1848be185a9e18485e185a2e186bae18483e185a9e186bce1848be185a1e186ab, -- 오랫동안
  0xe1848be185a9e18485e185a6e186abe1848ce185b5, -- 오렌지
  0xe1848be185a9e18485e185a9e1848ce185b5, -- 오로지
  0xe1848be185a9e18485e185b3e186abe18487e185a1e186af, -- 오른발
  0xe1848be185a9e18487e185b3e186ab, -- 오븐
  0xe1848be185a9e18489e185b5e186b8, -- 오십
  0xe1848be185a9e1848be185a7e186b7, -- 오염
  0xe1848be185a9e1848be185afe186af, -- 오월
  0xe1848be185a9e1848ce185a5e186ab, -- 오전
  0xe1848be185a9e1848ce185b5e186a8, -- 오직
  0xe1848be185a9e1848ce185b5e186bce1848be185a5, -- 오징어
  0xe1848be185a9e18491e185a6e18485e185a1, -- 오페라
  0xe1848be185a9e18491e185b5e18489e185b3e18490e185a6e186af, -- 오피스텔
  0xe1848be185a9e18492e185b5e18485e185a7, -- 오히려
  0xe1848be185a9e186a8e18489e185a1e186bc, -- 옥상
  0xe1848be185a9e186a8e18489e185aee18489e185ae, -- 옥수수
  0xe1848be185a9e186abe18480e185a1e186bd, -- 온갖
  0xe1848be185a9e186abe18485e185a1e1848be185b5e186ab, -- 온라인
  0xe1848be185a9e186abe18486e185a9e186b7, -- 온몸
  0xe1848be185a9e186abe1848ce185a9e186bce1848be185b5e186af, -- 온종일
  0xe1848be185a9e186abe18490e185a9e186bc, -- 온통
  0xe1848be185a9e186afe18480e185a1e1848be185b3e186af, -- 올가을
  0xe1848be185a9e186afe18485e185b5e186b7e18491e185b5e186a8, -- 올림픽
  0xe1848be185a9e186afe18492e185a2, -- 올해
  0xe1848be185a9e186bae1848ee185a1e18485e185b5e186b7, -- 옷차림
  0xe1848be185aae1848be185b5e18489e185a7e1848ee185b3, -- 와이셔츠
  0xe1848be185aae1848be185b5e186ab, -- 와인
  0xe1848be185aae186abe18489e185a5e186bc, -- 완성
  0xe1848be185aae186abe1848ce185a5e186ab, -- 완전
  0xe1848be185aae186bce18487e185b5, -- 왕비
  0xe1848be185aae186bce1848ce185a1, -- 왕자
  0xe1848be185abe18482e185a3e18492e185a1e18486e185a7e186ab, -- 왜냐하면
  0xe1848be185abe186abe1848ce185b5, -- 왠지
  0xe1848be185ace18480e185a1e186bae1848ce185b5e186b8, -- 외갓집
  0xe1848be185ace18480e185aee186a8, -- 외국
  0xe1848be185ace18485e185a9e1848be185aee186b7, -- 외로움
  0xe1848be185ace18489e185a1e186b7e1848ee185a9e186ab, -- 외삼촌
  0xe1848be185ace1848ee185aee186af, -- 외출
  0xe1848be185ace1848ee185b5e186b7, -- 외침
  0xe1848be185ace18492e185a1e186afe18486e185a5e18482e185b5, -- 외할머니
  0xe1848be185ace186abe18487e185a1e186af, -- 왼발
  0xe1848be185ace186abe18489e185a9e186ab, -- 왼손
  0xe1848be185ace186abe1848de185a9e186a8, -- 왼쪽
  0xe1848be185ade18480e185b3e186b7, -- 요금
  0xe1848be185ade1848be185b5e186af, -- 요일
  0xe1848be185ade1848ce185b3e186b7, -- 요즘
  0xe1848be185ade1848ee185a5e186bc, -- 요청
  0xe1848be185ade186bce18480e185b5, -- 용기
  0xe1848be185ade186bce18489e185a5, -- 용서
  0xe1848be185ade186bce1848be185a5, -- 용어
  0xe1848be185aee18489e185a1e186ab, -- 우산
  0xe1848be185aee18489e185a5e186ab, -- 우선
  0xe1848be185aee18489e185b3e186bc, -- 우승
  0xe1848be185aee1848be185a7e186abe18492e185b5, -- 우연히
  0xe1848be185aee1848ce185a5e186bc, -- 우정
  0xe1848be185aee1848ee185a6e18480e185aee186a8, -- 우체국
  0xe1848be185aee18491e185a7e186ab, -- 우편
  0xe1848be185aee186abe18483e185a9e186bc, -- 운동
  0xe1848be185aee186abe18486e185a7e186bc, -- 운명
  0xe1848be185aee186abe18487e185a1e186ab, -- 운반
  0xe1848be185aee186abe1848ce185a5e186ab, -- 운전
  0xe1848be185aee186abe18492e185a2e186bc, -- 운행
  0xe1848be185aee186afe18489e185a1e186ab, -- 울산
  0xe1848be185aee186afe1848be185b3e186b7, -- 울음
  0xe1848be185aee186b7e1848ce185b5e186a8e1848be185b5e186b7, -- 움직임
  0xe1848be185aee186bae1848be185a5e18485e185b3e186ab, -- 웃어른
  0xe1848be185aee186bae1848be185b3e186b7, -- 웃음
  0xe1848be185afe18482e185a1e186a8, -- 워낙
  0xe1848be185afe186abe18480e185a9, -- 원고
  0xe1848be185afe186abe18485e185a2, -- 원래
  0xe1848be185afe186abe18489e185a5, -- 원서
  0xe1848be185afe186abe18489e185aee186bce1848be185b5, -- 원숭이
  0xe1848be185afe186abe1848be185b5e186ab, -- 원인
  0xe1848be185afe186abe1848ce185a1e186bc, -- 원장
  0xe1848be185afe186abe18491e185b5e18489e185b3, -- 원피스
  0xe1848be185afe186afe18480e185b3e186b8, -- 월급
  0xe1848be185afe186afe18483e185b3e1848fe185a5e186b8, -- 월드컵
  0xe1848be185afe186afe18489e185a6, -- 월세
  0xe1848be185afe186afe1848be185ade1848be185b5e186af, -- 월요일
  0xe1848be185b0e1848be185b5e18490e185a5, -- 웨이터
  0xe1848be185b1e18487e185a1e186ab, -- 위반
  0xe1848be185b1e18487e185a5e186b8, -- 위법
  0xe1848be185b1e18489e185a5e186bc, -- 위성
  0xe1848be185b1e1848be185afe186ab, -- 위원
  0xe1848be185b1e18492e185a5e186b7, -- 위험
  0xe1848be185b1e18492e185a7e186b8, -- 위협
  0xe1848be185b1e186bae18489e185a1e18485e185a1e186b7, -- 윗사람
  0xe1848be185b2e18482e185a1e186abe18492e185b5, -- 유난히
  0xe1848be185b2e18485e185a5e186b8, -- 유럽
  0xe1848be185b2e18486e185a7e186bc, -- 유명
  0xe1848be185b2e18486e185aee186af, -- 유물
  0xe1848be185b2e18489e185a1e186ab, -- 유산
  0xe1848be185b2e1848ce185a5e186a8, -- 유적
  0xe1848be185b2e1848ee185b5e1848be185afe186ab, -- 유치원
  0xe1848be185b2e18492e185a1e186a8, -- 유학
  0xe1848be185b2e18492e185a2e186bc, -- 유행
  0xe1848be185b2e18492e185a7e186bc, -- 유형
  0xe1848be185b2e186a8e18480e185aee186ab, -- 육군
  0xe1848be185b2e186a8e18489e185a1e186bc, -- 육상
  0xe1848be185b2e186a8e18489e185b5e186b8, -- 육십
  0xe1848be185b2e186a8e1848ee185a6, -- 육체
  0xe1848be185b3e186abe18492e185a2e186bc, -- 은행
  0xe1848be185b3e186b7e18485e185a7e186a8, -- 음력
  0xe1848be185b3e186b7e18485e185ad, -- 음료
  0xe1848be185b3e186b7e18487e185a1e186ab, -- 음반
  0xe1848be185b3e186b7e18489e185a5e186bc, -- 음성
  0xe1848be185b3e186b7e18489e185b5e186a8, -- 음식
  0xe1848be185b3e186b7e1848be185a1e186a8, -- 음악
  0xe1848be185b3e186b7e1848ce185ae, -- 음주
  0xe1848be185b4e18480e185a7e186ab, -- 의견
  0xe1848be185b4e18482e185a9e186ab, -- 의논
  0xe1848be185b4e18486e185aee186ab, -- 의문
  0xe1848be185b4e18487e185a9e186a8, -- 의복
  0xe1848be185b4e18489e185b5e186a8, -- 의식
  0xe1848be185b4e18489e185b5e186b7, -- 의심
  0xe1848be185b4e1848be185ace18485e185a9, -- 의외로
  0xe1848be185b4e1848be185ade186a8, -- 의욕
  0xe1848be185b4e1848be185afe186ab, -- 의원
  0xe1848be185b4e18492e185a1e186a8, -- 의학
  0xe1848be185b5e18480e185a5e186ba, -- 이것
  0xe1848be185b5e18480e185a9e186ba, -- 이곳
  0xe1848be185b5e18482e185a7e186b7, -- 이념
  0xe1848be185b5e18482e185a9e186b7, -- 이놈
  0xe1848be185b5e18483e185a1e186af, -- 이달
  0xe1848be185b5e18483e185a2e18485e185a9, -- 이대로
  0xe1848be185b5e18483e185a9e186bc, -- 이동
  0xe1848be185b5e18485e185a5e18782e18480e185a6, -- 이렇게
  0xe1848be185b5e18485e185a7e186a8e18489e185a5, -- 이력서
  0xe1848be185b5e18485e185a9e186abe1848ce185a5e186a8, -- 이론적
  0xe1848be185b5e18485e185b3e186b7, -- 이름
  0xe1848be185b5e18486e185b5e186ab, -- 이민
  0xe1848be185b5e18487e185a1e186afe18489e185a9, -- 이발소
  0xe1848be185b5e18487e185a7e186af, -- 이별
  0xe1848be185b5e18487e185aee186af, -- 이불
  0xe1848be185b5e18488e185a1e186af, -- 이빨
  0xe1848be185b5e18489e185a1e186bc, -- 이상
  0xe1848be185b5e18489e185a5e186bc, -- 이성
  0xe1848be185b5e18489e185b3e186af, -- 이슬
  0xe1848be185b5e1848be185a3e18480e185b5, -- 이야기
  0xe1848be185b5e1848be185ade186bc, -- 이용
  0xe1848be185b5e1848be185aee186ba, -- 이웃
  0xe1848be185b5e1848be185afe186af, -- 이월
  0xe1848be185b5e1848be185b3e186a8e18480e185a9, -- 이윽고
  0xe1848be185b5e1848be185b5e186a8, -- 이익
  0xe1848be185b5e1848ce185a5e186ab, -- 이전
  0xe1848be185b5e1848ce185aee186bc, -- 이중
  0xe1848be185b5e18490e185b3e186aee18482e185a1e186af, -- 이튿날
  0xe1848be185b5e18490e185b3e186af, -- 이틀
  0xe1848be185b5e18492e185a9e186ab, -- 이혼
  0xe1848be185b5e186abe18480e185a1e186ab, -- 인간
  0xe1848be185b5e186abe18480e185a7e186a8, -- 인격
  0xe1848be185b5e186abe18480e185a9e186bc, -- 인공
  0xe1848be185b5e186abe18480e185ae, -- 인구
  0xe1848be185b5e186abe18480e185b3e186ab, -- 인근
  0xe1848be185b5e186abe18480e185b5, -- 인기
  0xe1848be185b5e186abe18483e185a9, -- 인도
  0xe1848be185b5e186abe18485e185b2, -- 인류
  0xe1848be185b5e186abe18486e185aee186af, -- 인물
  0xe1848be185b5e186abe18489e185a2e186bc, -- 인생
  0xe1848be185b5e186abe18489e185ab, -- 인쇄
  0xe1848be185b5e186abe1848be185a7e186ab, -- 인연
  0xe1848be185b5e186abe1848be185afe186ab, -- 인원
  0xe1848be185b5e186abe1848ce185a2, -- 인재
  0xe1848be185b5e186abe1848ce185a9e186bc, -- 인종
  0xe1848be185b5e186abe1848ee185a5e186ab, -- 인천
  0xe1848be185b5e186abe1848ee185a6, -- 인체
  0xe1848be185b5e186abe18490e185a5e18482e185a6e186ba, -- 인터넷
  0xe1848be185b5e186abe18492e185a1, -- 인하
  0xe1848be185b5e186abe18492e185a7e186bc, -- 인형
  0xe1848be185b5e186afe18480e185a9e186b8, -- 일곱
  0xe1848be185b5e186afe18480e185b5, -- 일기
  0xe1848be185b5e186afe18483e185a1e186ab, -- 일단
  0xe1848be185b5e186afe18483e185a2, -- 일대
  0xe1848be185b5e186afe18483e185b3e186bc, -- 일등
  0xe1848be185b5e186afe18487e185a1e186ab, -- 일반
  0xe1848be185b5e186afe18487e185a9e186ab, -- 일본
  0xe1848be185b5e186afe18487e185ae, -- 일부
  0xe1848be185b5e186afe18489e185a1e186bc, -- 일상
  0xe1848be185b5e186afe18489e185a2e186bc, -- 일생
  0xe1848be185b5e186afe18489e185a9e186ab, -- 일손
  0xe1848be185b5e186afe1848be185ade1848be185b5e186af, -- 일요일
  0xe1848be185b5e186afe1848be185afe186af, -- 일월
  0xe1848be185b5e186afe1848ce185a5e186bc, -- 일정
  0xe1848be185b5e186afe1848ce185a9e186bc, -- 일종
  0xe1848be185b5e186afe1848ce185aee1848be185b5e186af, -- 일주일
  0xe1848be185b5e186afe1848de185b5e186a8, -- 일찍
  0xe1848be185b5e186afe1848ee185a6, -- 일체
  0xe1848be185b5e186afe1848ee185b5, -- 일치
  0xe1848be185b5e186afe18492e185a2e186bc, -- 일행
  0xe1848be185b5e186afe18492e185ace1848be185ade186bc, -- 일회용
  0xe1848be185b5e186b7e18480e185b3e186b7, -- 임금
  0xe1848be185b5e186b7e18486e185ae, -- 임무
  0xe1848be185b5e186b8e18483e185a2, -- 입대
  0xe1848be185b5e186b8e18485e185a7e186a8, -- 입력
  0xe1848be185b5e186b8e18486e185a1e186ba, -- 입맛
  0xe1848be185b5e186b8e18489e185a1, -- 입사
  0xe1848be185b5e186b8e18489e185aee186af, -- 입술
  0xe1848be185b5e186b8e18489e185b5, -- 입시
  0xe1848be185b5e186b8e1848be185afe186ab, -- 입원
  0xe1848be185b5e186b8e1848ce185a1e186bc, -- 입장
  0xe1848be185b5e186b8e18492e185a1e186a8, -- 입학
  0xe1848ce185a1e18480e185a1e1848be185ade186bc, -- 자가용
  0xe1848ce185a1e18480e185a7e186a8, -- 자격
  0xe1848ce185a1e18480e185b3e186a8, -- 자극
  0xe1848ce185a1e18483e185a9e186bc, -- 자동
  0xe1848ce185a1e18485e185a1e186bc, -- 자랑
  0xe1848ce185a1e18487e185aee18489e185b5e186b7, -- 자부심
  0xe1848ce185a1e18489e185b5e186a8, -- 자식
  0xe1848ce185a1e18489e185b5e186ab, -- 자신
  0xe1848ce185a1e1848be185a7e186ab, -- 자연
  0xe1848ce185a1e1848be185afe186ab, -- 자원
  0xe1848ce185a1e1848be185b2e186af, -- 자율
  0xe1848ce185a1e1848ce185a5e186abe18480e185a5, -- 자전거
  0xe1848ce185a1e1848ce185a5e186bc, -- 자정
  0xe1848ce185a1e1848ce185a9e186abe18489e185b5e186b7, -- 자존심
  0xe1848ce185a1e18491e185a1e186ab, -- 자판
  0xe1848ce185a1e186a8e18480e185a1, -- 작가
  0xe1848ce185a1e186a8e18482e185a7e186ab, -- 작년
  0xe1848ce185a1e186a8e18489e185a5e186bc, -- 작성
  0xe1848ce185a1e186a8e1848be185a5e186b8, -- 작업
  0xe1848ce185a1e186a8e1848be185ade186bc, -- 작용
  0xe1848ce185a1e186a8e1848be185b3e186abe18484e185a1e186af, -- 작은딸
  0xe1848ce185a1e186a8e18491e185aee186b7, -- 작품
  0xe1848ce185a1e186abe18483e185b5, -- 잔디
  0xe1848ce185a1e186abe18484e185b3e186a8, -- 잔뜩
  0xe1848ce185a1e186abe1848ee185b5, -- 잔치
  0xe1848ce185a1e186afe18486e185a9e186ba, -- 잘못
  0xe1848ce185a1e186b7e18481e185a1e186ab, -- 잠깐
  0xe1848ce185a1e186b7e18489e185aee18492e185a1e186b7, -- 잠수함
  0xe1848ce185a1e186b7e18489e185b5, -- 잠시
  0xe1848ce185a1e186b7e1848be185a9e186ba, -- 잠옷
  0xe1848ce185a1e186b7e1848ce185a1e18485e185b5, -- 잠자리
  0xe1848ce185a1e186b8e1848ce185b5, -- 잡지
  0xe1848ce185a1e186bce18480e185aae186ab, -- 장관
  0xe1848ce185a1e186bce18480e185aee186ab, -- 장군
  0xe1848ce185a1e186bce18480e185b5e18480e185a1e186ab, -- 장기간
  0xe1848ce185a1e186bce18485e185a2, -- 장래
  0xe1848ce185a1e186bce18485e185a8, -- 장례
  0xe1848ce185a1e186bce18485e185b3, -- 장르
  0xe1848ce185a1e186bce18486e185a1, -- 장마
  0xe1848ce185a1e186bce18486e185a7e186ab, -- 장면
  0xe1848ce185a1e186bce18486e185a9, -- 장모
  0xe1848ce185a1e186bce18486e185b5, -- 장미
  0xe1848ce185a1e186bce18487e185b5, -- 장비
  0xe1848ce185a1e186bce18489e185a1, -- 장사
  0xe1848ce185a1e186bce18489e185a9, -- 장소
  0xe1848ce185a1e186bce18489e185b5e186a8, -- 장식
  0xe1848ce185a1e186bce1848be185a2e1848be185b5e186ab, -- 장애인
  0xe1848ce185a1e186bce1848be185b5e186ab, -- 장인
  0xe1848ce185a1e186bce1848ce185a5e186b7, -- 장점
  0xe1848ce185a1e186bce1848ee185a1, -- 장차
  0xe1848ce185a1e186bce18492e185a1e186a8e18480e185b3e186b7, -- 장학금
  0xe1848ce185a2e18482e185b3e186bc, -- 재능
  0xe1848ce185a2e18488e185a1e186afe18485e185b5, -- 재빨리
  0xe1848ce185a2e18489e185a1e186ab, -- 재산
  0xe1848ce185a2e18489e185a2e186bc, -- 재생
  0xe1848ce185a2e1848ce185a1e186a8e18482e185a7e186ab, -- 재작년
  0xe1848ce185a2e1848ce185a5e186bc, -- 재정
  0xe1848ce185a2e1848ee185a2e18480e185b5, -- 재채기
  0xe1848ce185a2e18491e185a1e186ab, -- 재판
  0xe1848ce185a2e18492e185a1e186a8, -- 재학
  0xe1848ce185a2e18492e185aae186afe1848be185ade186bc, -- 재활용
  0xe1848ce185a5e18480e185a5e186ba, -- 저것
  0xe1848ce185a5e18480e185a9e18485e185b5, -- 저고리
  0xe1848ce185a5e18480e185a9e186ba, -- 저곳
  0xe1848ce185a5e18482e185a7e186a8, -- 저녁
  0xe1848ce185a5e18485e185a5e186ab, -- 저런
  0xe1848ce185a5e18485e185a5e18782e18480e185a6, -- 저렇게
  0xe1848ce185a5e18487e185a5e186ab, -- 저번
  0xe1848ce185a5e1848be185aee186af, -- 저울
  0xe1848ce185a5e1848ce185a5e186afe18485e185a9, -- 저절로
  0xe1848ce185a5e1848ee185aee186a8, -- 저축
  0xe1848ce185a5e186a8e18480e185b3e186a8, -- 적극
  0xe1848ce185a5e186a8e18483e185a1e186bce18492e185b5, -- 적당히
  0xe1848ce185a5e186a8e18489e185a5e186bc, -- 적성
  0xe1848ce185a5e186a8e1848be185ade186bc, -- 적용
  0xe1848ce185a5e186a8e1848be185b3e186bc, -- 적응
  0xe1848ce185a5e186abe18480e185a2, -- 전개
  0xe1848ce185a5e186abe18480e185a9e186bc, -- 전공
  0xe1848ce185a5e186abe18480e185b5, -- 전기
  0xe1848ce185a5e186abe18483e185a1e186af, -- 전달
  0xe1848ce185a5e186abe18485e185a1e18483e185a9, -- 전라도
  0xe1848ce185a5e186abe18486e185a1e186bc, -- 전망
  0xe1848ce185a5e186abe18486e185aee186ab, -- 전문
  0xe1848ce185a5e186abe18487e185a1e186ab, -- 전반
  0xe1848ce185a5e186abe18487e185ae, -- 전부
  0xe1848ce185a5e186abe18489e185a6, -- 전세
  0xe1848ce185a5e186abe18489e185b5, -- 전시
  0xe1848ce185a5e186abe1848be185ade186bc, -- 전용
  0xe1848ce185a5e186abe1848ce185a1, -- 전자
  0xe1848ce185a5e186abe1848ce185a2e186bc, -- 전쟁
  0xe1848ce185a5e186abe1848ce185ae, -- 전주
  0xe1848ce185a5e186abe1848ee185a5e186af, -- 전철
  0xe1848ce185a5e186abe1848ee185a6, -- 전체
  0xe1848ce185a5e186abe18490e185a9e186bc, -- 전통
  0xe1848ce185a5e186abe18492e185a7, -- 전혀
  0xe1848ce185a5e186abe18492e185ae, -- 전후
  0xe1848ce185a5e186afe18483e185a2, -- 절대
  0xe1848ce185a5e186afe18486e185a1e186bc, -- 절망
  0xe1848ce185a5e186afe18487e185a1e186ab, -- 절반
  0xe1848ce185a5e186afe1848be185a3e186a8, -- 절약
  0xe1848ce185a5e186afe1848ee185a1, -- 절차
  0xe1848ce185a5e186b7e18480e185a5e186b7, -- 점검
  0xe1848ce185a5e186b7e18489e185ae, -- 점수
  0xe1848ce185a5e186b7e18489e185b5e186b7, -- 점심
  0xe1848ce185a5e186b7e1848be185afe186ab, -- 점원
  0xe1848ce185a5e186b7e1848ce185a5e186b7, -- 점점
  0xe1848ce185a5e186b7e1848ee185a1, -- 점차
  0xe1848ce185a5e186b8e18480e185b3e186ab, -- 접근
  0xe1848ce185a5e186b8e18489e185b5, -- 접시
  0xe1848ce185a5e186b8e1848ee185a9e186a8, -- 접촉
  0xe1848ce185a5e186bae18480e185a1e18485e185a1e186a8, -- 젓가락
  0xe1848ce185a5e186bce18480e185a5e1848ce185a1e186bc, -- 정거장
  0xe1848ce185a5e186bce18483e185a9, -- 정도
  0xe1848ce185a5e186bce18485e185b2e1848ce185a1e186bc, -- 정류장
  0xe1848ce185a5e186bce18485e185b5, -- 정리
  0xe1848ce185a5e186bce18486e185a1e186af, -- 정말
  0xe1848ce185a5e186bce18486e185a7e186ab, -- 정면
  0xe1848ce185a5e186bce18486e185aee186ab, -- 정문
  0xe1848ce185a5e186bce18487e185a1e186abe18483e185a2, -- 정반대
  0xe1848ce185a5e186bce18487e185a9, -- 정보
  0xe1848ce185a5e186bce18487e185ae, -- 정부
  0xe1848ce185a5e186bce18487e185b5, -- 정비
  0xe1848ce185a5e186bce18489e185a1e186bc, -- 정상
  0xe1848ce185a5e186bce18489e185a5e186bc, -- 정성
  0xe1848ce185a5e186bce1848be185a9, -- 정오
  0xe1848ce185a5e186bce1848be185afe186ab, -- 정원
  0xe1848ce185a5e186bce1848ce185a1e186bc, -- 정장
  0xe1848ce185a5e186bce1848ce185b5, -- 정지
  0xe1848ce185a5e186bce1848ee185b5, -- 정치
  0xe1848ce185a5e186bce18492e185aae186a8e18492e185b5, -- 정확히
  0xe1848ce185a6e18480e185a9e186bc, -- 제공
  0xe1848ce185a6e18480e185aae1848ce185a5e186b7, -- 제과점
  0xe1848ce185a6e18483e185a2e18485e185a9, -- 제대로
  0xe1848ce185a6e18486e185a9e186a8, -- 제목
  0xe1848ce185a6e18487e185a1e186af, -- 제발
  0xe1848ce185a6e18487e185a5e186b8, -- 제법
  0xe1848ce185a6e18489e185a1e186bae18482e185a1e186af, -- 제삿날
  0xe1848ce185a6e1848be185a1e186ab, -- 제안
  0xe1848ce185a6e1848be185b5e186af, -- 제일
  0xe1848ce185a6e1848ce185a1e186a8, -- 제작
  0xe1848ce185a6e1848ce185aee18483e185a9, -- 제주도
  0xe1848ce185a6e1848ee185aee186af, -- 제출
  0xe1848ce185a6e18491e185aee186b7, -- 제품
  0xe1848ce185a6e18492e185a1e186ab, -- 제한
  0xe1848ce185a9e18480e185a1e186a8, -- 조각
  0xe1848ce185a9e18480e185a5e186ab, -- 조건
  0xe1848ce185a9e18480e185b3e186b7, -- 조금
  0xe1848ce185a9e18480e185b5e186bc, -- 조깅
  0xe1848ce185a9e18486e185a7e186bc, -- 조명
  0xe1848ce185a9e18486e185b5e18485e185ad, -- 조미료
  0xe1848ce185a9e18489e185a1e186bc, -- 조상
  0xe1848ce185a9e18489e185a5e186ab, -- 조선
  0xe1848ce185a9e1848be185ade186bce18492e185b5, -- 조용히
  0xe1848ce185a9e1848ce185a5e186af, -- 조절
  0xe1848ce185a9e1848ce185a5e186bc, -- 조정
  0xe1848ce185a9e1848ce185b5e186a8, -- 조직
  0xe1848ce185a9e186abe18483e185a2e186bae18486e185a1e186af, -- 존댓말
  0xe1848ce185a9e186abe1848ce185a2, -- 존재
  0xe1848ce185a9e186afe1848be185a5e186b8, -- 졸업
  0xe1848ce185a9e186afe1848be185b3e186b7, -- 졸음
  0xe1848ce185a9e186bce18480e185ad, -- 종교
  0xe1848ce185a9e186bce18485e185a9, -- 종로
  0xe1848ce185a9e186bce18485e185b2, -- 종류
  0xe1848ce185a9e186bce18489e185a9e18485e185b5, -- 종소리
  0xe1848ce185a9e186bce1848be185a5e186b8e1848be185afe186ab, -- 종업원
  0xe1848ce185a9e186bce1848ce185a9e186bc, -- 종종
  0xe1848ce185a9e186bce18492e185a1e186b8, -- 종합
  0xe1848ce185aae18489e185a5e186a8, -- 좌석
  0xe1848ce185ace1848be185b5e186ab, -- 죄인
  0xe1848ce185aee18480e185aae186abe1848ce185a5e186a8, -- 주관적
  0xe1848ce185aee18485e185b3e186b7, -- 주름
  0xe1848ce185aee18486e185a1e186af, -- 주말
  0xe1848ce185aee18486e185a5e18482e185b5, -- 주머니
  0xe1848ce185aee18486e185a5e186a8, -- 주먹
  0xe1848ce185aee18486e185aee186ab, -- 주문
  0xe1848ce185aee18486e185b5e186ab, -- 주민
  0xe1848ce185aee18487e185a1e186bc, -- 주방
  0xe1848ce185aee18487e185a7e186ab, -- 주변
  0xe1848ce185aee18489e185b5e186a8, -- 주식
  0xe1848ce185aee1848be185b5e186ab, -- 주인
  0xe1848ce185aee1848be185b5e186af, -- 주일
  0xe1848ce185aee1848ce185a1e186bc, -- 주장
  0xe1848ce185aee1848ce185a5e186abe1848ce185a1, -- 주전자
  0xe1848ce185aee18490e185a2e186a8, -- 주택
  0xe1848ce185aee186abe18487e185b5, -- 준비
  0xe1848ce185aee186afe18480e185a5e18485e185b5, -- 줄거리
  0xe1848ce185aee186afe18480e185b5, -- 줄기
  0xe1848ce185aee186afe18486e185aee18482e185b4, -- 줄무늬
  0xe1848ce185aee186bce18480e185a1e186ab, -- 중간
  0xe1848ce185aee186bce18480e185a8e18487e185a1e186bce18489e185a9e186bc, -- 중계방송
  0xe1848ce185aee186bce18480e185aee186a8, -- 중국
  0xe1848ce185aee186bce18482e185a7e186ab, -- 중년
  0xe1848ce185aee186bce18483e185a1e186ab, -- 중단
  0xe1848ce185aee186bce18483e185a9e186a8, -- 중독
  0xe1848ce185aee186bce18487e185a1e186ab, -- 중반
  0xe1848ce185aee186bce18487e185ae, -- 중부
  0xe1848ce185aee186bce18489e185a6, -- 중세
  0xe1848ce185aee186bce18489e185a9e18480e185b5e1848be185a5e186b8, -- 중소기업
  0xe1848ce185aee186bce18489e185aee186ab, -- 중순
  0xe1848ce185aee186bce1848be185a1e186bc, -- 중앙
  0xe1848ce185aee186bce1848be185ad, -- 중요
  0xe1848ce185aee186bce18492e185a1e186a8e18480e185ad, -- 중학교
  0xe1848ce185b3e186a8e18489e185a5e186a8, -- 즉석
  0xe1848ce185b3e186a8e18489e185b5, -- 즉시
  0xe1848ce185b3e186afe18480e185a5e1848be185aee186b7, -- 즐거움
  0xe1848ce185b3e186bce18480e185a1, -- 증가
  0xe1848ce185b3e186bce18480e185a5, -- 증거
  0xe1848ce185b3e186bce18480e185afe186ab, -- 증권
  0xe1848ce185b3e186bce18489e185a1e186bc, -- 증상
  0xe1848ce185b3e186bce18489e185a6, -- 증세
  0xe1848ce185b5e18480e185a1e186a8, -- 지각
  0xe1848ce185b5e18480e185a1e186b8, -- 지갑
  0xe1848ce185b5e18480e185a7e186bc, -- 지경
  0xe1848ce185b5e18480e185b3e186a8e18492e185b5, -- 지극히
  0xe1848ce185b5e18480e185b3e186b7, -- 지금
  0xe1848ce185b5e18480e185b3e186b8, -- 지급
  0xe1848ce185b5e18482e185b3e186bc, -- 지능
  0xe1848ce185b5e18485e185b3e186b7e18480e185b5e186af, -- 지름길
  0xe1848ce185b5e18485e185b5e18489e185a1e186ab, -- 지리산
  0xe1848ce185b5e18487e185a1e186bc, -- 지방
  0xe1848ce185b5e18487e185aee186bc, -- 지붕
  0xe1848ce185b5e18489e185b5e186a8, -- 지식
  0xe1848ce185b5e1848be185a7e186a8, -- 지역
  0xe1848ce185b5e1848be185aee18480e185a2, -- 지우개
  0xe1848ce185b5e1848be185afe186ab, -- 지원
  0xe1848ce185b5e1848ce185a5e186a8, -- 지적
  0xe1848ce185b5e1848ce185a5e186b7, -- 지점
  0xe1848ce185b5e1848ce185b5e186ab, -- 지진
  0xe1848ce185b5e1848ee185aee186af, -- 지출
  0xe1848ce185b5e186a8e18489e185a5e186ab, -- 직선
  0xe1848ce185b5e186a8e1848be185a5e186b8, -- 직업
  0xe1848ce185b5e186a8e1848be185afe186ab, -- 직원
  0xe1848ce185b5e186a8e1848ce185a1e186bc, -- 직장
  0xe1848ce185b5e186abe18480e185b3e186b8, -- 진급
  0xe1848ce185b5e186abe18483e185a9e186bc, -- 진동
  0xe1848ce185b5e186abe18485e185a9, -- 진로
  0xe1848ce185b5e186abe18485e185ad, -- 진료
  0xe1848ce185b5e186abe18485e185b5, -- 진리
  0xe1848ce185b5e186abe1848de185a1, -- 진짜
  0xe1848ce185b5e186abe1848ee185a1e186af, -- 진찰
  0xe1848ce185b5e186abe1848ee185aee186af, -- 진출
  0xe1848ce185b5e186abe18490e185a9e186bc, -- 진통
  0xe1848ce185b5e186abe18492e185a2e186bc, -- 진행
  0xe1848ce185b5e186afe18486e185aee186ab, -- 질문
  0xe1848ce185b5e186afe18487e185a7e186bc, -- 질병
  0xe1848ce185b5e186afe18489e185a5, -- 질서
  0xe1848ce185b5e186b7e1848ce185a1e186a8, -- 짐작
  0xe1848ce185b5e186b8e18483e185a1e186ab, -- 집단
  0xe1848ce185b5e186b8e1848be185a1e186ab, -- 집안
  0xe1848ce185b5e186b8e1848ce185aee186bc, -- 집중
  0xe1848de185a1e1848ce185b3e186bc, -- 짜증
  0xe1848de185b5e18481e185a5e18480e185b5, -- 찌꺼기
  0xe1848ee185a1e18482e185a1e186b7, -- 차남
  0xe1848ee185a1e18485e185a1e18485e185b5, -- 차라리
  0xe1848ee185a1e18485e185a3e186bc, -- 차량
  0xe1848ee185a1e18485e185b5e186b7, -- 차림
  0xe1848ee185a1e18487e185a7e186af, -- 차별
  0xe1848ee185a1e18489e185a5e186ab, -- 차선
  0xe1848ee185a1e1848ee185b3e186b7, -- 차츰
  0xe1848ee185a1e186a8e18480e185a1e186a8, -- 착각
  0xe1848ee185a1e186abe18486e185aee186af, -- 찬물
  0xe1848ee185a1e186abe18489e185a5e186bc, -- 찬성
  0xe1848ee185a1e186b7e18480e185a1, -- 참가
  0xe1848ee185a1e186b7e18480e185b5e18485e185b3e186b7, -- 참기름
  0xe1848ee185a1e186b7e18489e185a2, -- 참새
  0xe1848ee185a1e186b7e18489e185a5e186a8, -- 참석
  0xe1848ee185a1e186b7e1848be185a7, -- 참여
  0xe1848ee185a1e186b7e1848be185ac, -- 참외
  0xe1848ee185a1e186b7e1848ce185a9, -- 참조
  0xe1848ee185a1e186bae1848ce185a1e186ab, -- 찻잔
  0xe1848ee185a1e186bce18480e185a1, -- 창가
  0xe1848ee185a1e186bce18480e185a9, -- 창고
  0xe1848ee185a1e186bce18480e185ae, -- 창구
  0xe1848ee185a1e186bce18486e185aee186ab, -- 창문
  0xe1848ee185a1e186bce18487e185a1e186a9, -- 창밖
  0xe1848ee185a1e186bce1848ce185a1e186a8, -- 창작
  0xe1848ee185a1e186bce1848ce185a9, -- 창조
  0xe1848ee185a2e18482e185a5e186af, -- 채널
  0xe1848ee185a2e1848ce185a5e186b7, -- 채점
  0xe1848ee185a2e186a8e18480e185a1e18487e185a1e186bc, -- 책가방
  0xe1848ee185a2e186a8e18487e185a1e186bc, -- 책방
  0xe1848ee185a2e186a8e18489e185a1e186bc, -- 책상
  0xe1848ee185a2e186a8e1848be185b5e186b7, -- 책임
  0xe1848ee185a2e186b7e18491e185b5e1848be185a5e186ab, -- 챔피언
  0xe1848ee185a5e18487e185a5e186af, -- 처벌
  0xe1848ee185a5e1848be185b3e186b7, -- 처음
  0xe1848ee185a5e186abe18480e185aee186a8, -- 천국
  0xe1848ee185a5e186abe18483e185aee186bc, -- 천둥
  0xe1848ee185a5e186abe1848ce185a1e186bc, -- 천장
  0xe1848ee185a5e186abe1848ce185a2, -- 천재
  0xe1848ee185a5e186abe1848ee185a5e186abe18492e185b5, -- 천천히
  0xe1848ee185a5e186afe18483e185a9, -- 철도
  0xe1848ee185a5e186afe1848ce185a5e18492e185b5, -- 철저히
  0xe1848ee185a5e186afe18492e185a1e186a8, -- 철학
  0xe1848ee185a5e186bae18482e185a1e186af, -- 첫날
  0xe1848ee185a5e186bae1848de185a2, -- 첫째
  0xe1848ee185a5e186bce18482e185a7e186ab, -- 청년
  0xe1848ee185a5e186bce18487e185a1e1848ce185b5, -- 청바지
  0xe1848ee185a5e186bce18489e185a9, -- 청소
  0xe1848ee185a5e186bce1848ee185aee186ab, -- 청춘
  0xe1848ee185a6e18480e185a8, -- 체계
  0xe1848ee185a6e18485e185a7e186a8, -- 체력
  0xe1848ee185a6e1848be185a9e186ab, -- 체온
  0xe1848ee185a6e1848be185b2e186a8, -- 체육
  0xe1848ee185a6e1848ce185aee186bc, -- 체중
  0xe1848ee185a6e18492e185a5e186b7, -- 체험
  0xe1848ee185a9e18483e185b3e186bce18492e185a1e186a8e18489e185a2e186bc, -- 초등학생
  0xe1848ee185a9e18487e185a1e186ab, -- 초반
  0xe1848ee185a9e18487e185a1e186b8, -- 초밥
  0xe1848ee185a9e18489e185a1e186bce18492e185aa, -- 초상화
  0xe1848ee185a9e18489e185aee186ab, -- 초순
  0xe1848ee185a9e1848be185a7e18485e185b3e186b7, -- 초여름
  0xe1848ee185a9e1848be185afe186ab, -- 초원
  0xe1848ee185a9e1848ce185a5e18482e185a7e186a8, -- 초저녁
  0xe1848ee185a9e1848ce185a5e186b7, -- 초점
  0xe1848ee185a9e1848ee185a5e186bc, -- 초청
  0xe1848ee185a9e1848fe185a9e186afe18485e185b5e186ba, -- 초콜릿
  0xe1848ee185a9e186bae18487e185aee186af, -- 촛불
  0xe1848ee185a9e186bce18480e185a1e186a8, -- 총각
  0xe1848ee185a9e186bce18485e185b5, -- 총리
  0xe1848ee185a9e186bce1848ce185a1e186bc, -- 총장
  0xe1848ee185aae186afe1848be185a7e186bc, -- 촬영
  0xe1848ee185ace18480e185b3e186ab, -- 최근
  0xe1848ee185ace18489e185a1e186bc, -- 최상
  0xe1848ee185ace18489e185a5e186ab, -- 최선
  0xe1848ee185ace18489e185b5e186ab, -- 최신
  0xe1848ee185ace1848be185a1e186a8, -- 최악
  0xe1848ee185ace1848ce185a9e186bc, -- 최종
  0xe1848ee185aee18489e185a5e186a8, -- 추석
  0xe1848ee185aee1848be185a5e186a8, -- 추억
  0xe1848ee185aee1848ce185b5e186ab, -- 추진
  0xe1848ee185aee1848ee185a5e186ab, -- 추천
  0xe1848ee185aee1848ee185b3e186a8, -- 추측
  0xe1848ee185aee186a8e18480e185ae, -- 축구
  0xe1848ee185aee186a8e18489e185a9, -- 축소
  0xe1848ee185aee186a8e1848ce185a6, -- 축제
  0xe1848ee185aee186a8e18492e185a1, -- 축하
  0xe1848ee185aee186afe18480e185b3e186ab, -- 출근
  0xe1848ee185aee186afe18487e185a1e186af, -- 출발
  0xe1848ee185aee186afe18489e185a1e186ab, -- 출산
  0xe1848ee185aee186afe18489e185b5e186ab, -- 출신
  0xe1848ee185aee186afe1848be185a7e186ab, -- 출연
  0xe1848ee185aee186afe1848be185b5e186b8, -- 출입
  0xe1848ee185aee186afe1848ce185a1e186bc, -- 출장
  0xe1848ee185aee186afe18491e185a1e186ab, -- 출판
  0xe1848ee185aee186bce18480e185a7e186a8, -- 충격
  0xe1848ee185aee186bce18480e185a9, -- 충고
  0xe1848ee185aee186bce18483e185a9e186af, -- 충돌
  0xe1848ee185aee186bce18487e185aee186abe18492e185b5, -- 충분히
  0xe1848ee185aee186bce1848ee185a5e186bce18483e185a9, -- 충청도
  0xe1848ee185b1e1848be185a5e186b8, -- 취업
  0xe1848ee185b1e1848ce185b5e186a8, -- 취직
  0xe1848ee185b1e18492e185a3e186bc, -- 취향
  0xe1848ee185b5e1848be185a3e186a8, -- 치약
  0xe1848ee185b5e186abe18480e185ae, -- 친구
  0xe1848ee185b5e186abe1848ee185a5e186a8, -- 친척
  0xe1848ee185b5e186afe18489e185b5e186b8, -- 칠십
  0xe1848ee185b5e186afe1848be185afe186af, -- 칠월
  0xe1848ee185b5e186afe18491e185a1e186ab, -- 칠판
  0xe1848ee185b5e186b7e18483e185a2, -- 침대
  0xe1848ee185b5e186b7e18486e185aee186a8, -- 침묵
  0xe1848ee185b5e186b7e18489e185b5e186af, -- 침실
  0xe1848ee185b5e186bae18489e185a9e186af, -- 칫솔
  0xe1848ee185b5e186bce1848ee185a1e186ab, -- 칭찬
  0xe1848fe185a1e18486e185a6e18485e185a1, -- 카메라
  0xe1848fe185a1e1848be185aee186abe18490e185a5, -- 카운터
  0xe1848fe185a1e186afe18480e185aee186a8e18489e185ae, -- 칼국수
  0xe1848fe185a2e18485e185b5e186a8e18490e185a5, -- 캐릭터
  0xe1848fe185a2e186b7e18491e185a5e18489e185b3, -- 캠퍼스
  0xe1848fe185a2e186b7e18491e185a6e1848be185b5e186ab, -- 캠페인
  0xe1848fe185a5e18490e185b3e186ab, -- 커튼
  0xe1848fe185a5e186abe18483e185b5e18489e185a7e186ab, -- 컨디션
  0xe1848fe185a5e186afe18485e185a5, -- 컬러
  0xe1848fe185a5e186b7e18491e185b2e18490e185a5, -- 컴퓨터
  0xe1848fe185a9e18481e185b5e18485e185b5, -- 코끼리
  0xe1848fe185a9e18486e185b5e18483e185b5, -- 코미디
  0xe1848fe185a9e186abe18489e185a5e18490e185b3, -- 콘서트
  0xe1848fe185a9e186afe18485e185a1, -- 콜라
  0xe1848fe185a9e186b7e18491e185b3e186afe18485e185a6e186a8e18489e185b3, -- 콤플렉스
  0xe1848fe185a9e186bce18482e185a1e18486e185aee186af, -- 콩나물
  0xe1848fe185abe18480e185a1e186b7, -- 쾌감
  0xe1848fe185aee18483e185a6e18490e185a1, -- 쿠데타
  0xe1848fe185b3e18485e185b5e186b7, -- 크림
  0xe1848fe185b3e186abe18480e185b5e186af, -- 큰길
  0xe1848fe185b3e186abe18484e185a1e186af, -- 큰딸
  0xe1848fe185b3e186abe18489e185a9e18485e185b5, -- 큰소리
  0xe1848fe185b3e186abe1848be185a1e18483e185b3e186af, -- 큰아들
  0xe1848fe185b3e186abe1848be185a5e18486e185a5e18482e185b5, -- 큰어머니
  0xe1848fe185b3e186abe1848be185b5e186af, -- 큰일
  0xe1848fe185b3e186abe1848ce185a5e186af, -- 큰절
  0xe1848fe185b3e186afe18485e185a2e18489e185b5e186a8, -- 클래식
  0xe1848fe185b3e186afe18485e185a5e186b8, -- 클럽
  0xe1848fe185b5e186afe18485e185a9, -- 킬로
  0xe18490e185a1e1848be185b5e186b8, -- 타입
  0xe18490e185a1e1848ce185a1e18480e185b5, -- 타자기
  0xe18490e185a1e186a8e18480e185ae, -- 탁구
  0xe18490e185a1e186a8e1848ce185a1, -- 탁자
  0xe18490e185a1e186abe18489e185a2e186bc, -- 탄생
  0xe18490e185a2e18480e185afe186abe18483e185a9, -- 태권도
  0xe18490e185a2e1848be185a3e186bc, -- 태양
  0xe18490e185a2e18491e185aee186bc, -- 태풍
  0xe18490e185a2e186a8e18489e185b5, -- 택시
  0xe18490e185a2e186afe18485e185a5e186abe18490e185b3, -- 탤런트
  0xe18490e185a5e18482e185a5e186af, -- 터널
  0xe18490e185a5e18486e185b5e18482e185a5e186af, -- 터미널
  0xe18490e185a6e18482e185b5e18489e185b3, -- 테니스
  0xe18490e185a6e18489e185b3e18490e185b3, -- 테스트
  0xe18490e185a6e1848be185b5e18487e185b3e186af, -- 테이블
  0xe18490e185a6e186afe18485e185a6e18487e185b5e1848ce185a5e186ab, -- 텔레비전
  0xe18490e185a9e18485e185a9e186ab, -- 토론
  0xe18490e185a9e18486e185a1e18490e185a9, -- 토마토
  0xe18490e185a9e1848be185ade1848be185b5e186af, -- 토요일
  0xe18490e185a9e186bce18480e185a8, -- 통계
  0xe18490e185a9e186bce18480e185aa, -- 통과
  0xe18490e185a9e186bce18485e185a9, -- 통로
  0xe18490e185a9e186bce18489e185b5e186ab, -- 통신
  0xe18490e185a9e186bce1848be185a7e186a8, -- 통역
  0xe18490e185a9e186bce1848be185b5e186af, -- 통일
  0xe18490e185a9e186bce1848ce185a1e186bc, -- 통장
  0xe18490e185a9e186bce1848ce185a6, -- 통제
  0xe18490e185a9e186bce1848ce185b3e186bc, -- 통증
  0xe18490e185a9e186bce18492e185a1e186b8, -- 통합
  0xe18490e185a9e186bce18492e185aa, -- 통화
  0xe18490e185ace18480e185b3e186ab, -- 퇴근
  0xe18490e185ace1848be185afe186ab, -- 퇴원
  0xe18490e185ace1848ce185b5e186a8e18480e185b3e186b7, -- 퇴직금
  0xe18490e185b1e18480e185b5e186b7, -- 튀김
  0xe18490e185b3e18485e185a5e186a8, -- 트럭
  0xe18490e185b3e186a8e18480e185b3e186b8, -- 특급
  0xe18490e185b3e186a8e18487e185a7e186af, -- 특별
  0xe18490e185b3e186a8e18489e185a5e186bc, -- 특성
  0xe18490e185b3e186a8e18489e185ae, -- 특수
  0xe18490e185b3e186a8e1848ce185b5e186bc, -- 특징
  0xe18490e185b3e186a8e18492e185b5, -- 특히
  0xe18490e185b3e186abe18490e185b3e186abe18492e185b5, -- 튼튼히
  0xe18490e185b5e18489e185a7e1848ee185b3, -- 티셔츠
  0xe18491e185a1e18485e185a1e186abe18489e185a2e186a8, -- 파란색
  0xe18491e185a1e1848be185b5e186af, -- 파일
  0xe18491e185a1e1848ee185aee186afe18489e185a9, -- 파출소
  0xe18491e185a1e186abe18480e185a7e186af, -- 판결
  0xe18491e185a1e186abe18483e185a1e186ab, -- 판단
  0xe18491e185a1e186abe18486e185a2, -- 판매
  0xe18491e185a1e186abe18489e185a1, -- 판사
  0xe18491e185a1e186afe18489e185b5e186b8, -- 팔십
  0xe18491e185a1e186afe1848be185afe186af, -- 팔월
  0xe18491e185a1e186b8e18489e185a9e186bc, -- 팝송
  0xe18491e185a2e18489e185a7e186ab, -- 패션
  0xe18491e185a2e186a8e18489e185b3, -- 팩스
  0xe18491e185a2e186a8e18489e185b5e18486e185b5e186afe18485e185b5, -- 팩시밀리
  0xe18491e185a2e186abe18490e185b5, -- 팬티
  0xe18491e185a5e18489e185a6e186abe18490e185b3, -- 퍼센트
  0xe18491e185a6e1848be185b5e186abe18490e185b3, -- 페인트
  0xe18491e185a7e186abe18480e185a7e186ab, -- 편견
  0xe18491e185a7e186abe1848be185b4, -- 편의
  0xe18491e185a7e186abe1848ce185b5, -- 편지
  0xe18491e185a7e186abe18492e185b5, -- 편히
  0xe18491e185a7e186bce18480e185a1, -- 평가
  0xe18491e185a7e186bce18480e185b2e186ab, -- 평균
  0xe18491e185a7e186bce18489e185a2e186bc, -- 평생
  0xe18491e185a7e186bce18489e185a9, -- 평소
  0xe18491e185a7e186bce1848be185a3e186bc, -- 평양
  0xe18491e185a7e186bce1848be185b5e186af, -- 평일
  0xe18491e185a7e186bce18492e185aa, -- 평화
  0xe18491e185a9e18489e185b3e18490e185a5, -- 포스터
  0xe18491e185a9e1848be185b5e186abe18490e185b3, -- 포인트
  0xe18491e185a9e1848ce185a1e186bc, -- 포장
  0xe18491e185a9e18492e185a1e186b7, -- 포함
  0xe18491e185ade18486e185a7e186ab, -- 표면
  0xe18491e185ade1848ce185a5e186bc, -- 표정
  0xe18491e185ade1848ce185aee186ab, -- 표준
  0xe18491e185ade18492e185a7e186ab, -- 표현
  0xe18491e185aee186b7e18486e185a9e186a8, -- 품목
  0xe18491e185aee186b7e1848ce185b5e186af, -- 품질
  0xe18491e185aee186bce18480e185a7e186bc, -- 풍경
  0xe18491e185aee186bce18489e185a9e186a8, -- 풍속
  0xe18491e185aee186bce18489e185b3e186b8, -- 풍습
  0xe18491e185b3e18485e185a1e186bce18489e185b3, -- 프랑스
  0xe18491e185b3e18485e185b5e186abe18490e185a5, -- 프린터
  0xe18491e185b3e186afe18485e185a1e18489e185b3e18490e185b5e186a8, -- 플라스틱
  0xe18491e185b5e18480e185a9e186ab, -- 피곤
  0xe18491e185b5e18486e185a1e186bc, -- 피망
  0xe18491e185b5e1848be185a1e18482e185a9, -- 피아노
  0xe18491e185b5e186afe18485e185b3e186b7, -- 필름
  0xe18491e185b5e186afe18489e185ae, -- 필수
  0xe18491e185b5e186afe1848be185ad, -- 필요
  0xe18491e185b5e186afe1848ce185a1, -- 필자
  0xe18491e185b5e186afe18490e185a9e186bc, -- 필통
  0xe18491e185b5e186bce18480e185a8, -- 핑계
  0xe18492e185a1e18482e185b3e18482e185b5e186b7, -- 하느님
  0xe18492e185a1e18482e185b3e186af, -- 하늘
  0xe18492e185a1e18483e185b3e1848be185b0e1848be185a5, -- 하드웨어
  0xe18492e185a1e18485e185aee186bae18487e185a1e186b7, -- 하룻밤
  0xe18492e185a1e18487e185a1e186abe18480e185b5, -- 하반기
  0xe18492e185a1e18489e185aee186a8e1848ce185b5e186b8, -- 하숙집
  0xe18492e185a1e18489e185aee186ab, -- 하순
  0xe18492e185a1e1848be185a7e18490e185b3e186ab, -- 하여튼
  0xe18492e185a1e1848ce185b5e18486e185a1e186ab, -- 하지만
  0xe18492e185a1e1848ee185a5e186ab, -- 하천
  0xe18492e185a1e18491e185aee186b7, -- 하품
  0xe18492e185a1e18491e185b5e186af, -- 하필
  0xe18492e185a1e186a8e18480e185aa, -- 학과
  0xe18492e185a1e186a8e18480e185ad, -- 학교
  0xe18492e185a1e186a8e18480e185b3e186b8, -- 학급
  0xe18492e185a1e186a8e18480e185b5, -- 학기
  0xe18492e185a1e186a8e18482e185a7e186ab, -- 학년
  0xe18492e185a1e186a8e18485e185a7e186a8, -- 학력
  0xe18492e185a1e186a8e18487e185a5e186ab, -- 학번
  0xe18492e185a1e186a8e18487e185aee18486e185a9, -- 학부모
  0xe18492e185a1e186a8e18487e185b5, -- 학비
  0xe18492e185a1e186a8e18489e185a2e186bc, -- 학생
  0xe18492e185a1e186a8e18489e185aee186af, -- 학술
  0xe18492e185a1e186a8e18489e185b3e186b8, -- 학습
  0xe18492e185a1e186a8e1848be185ade186bce18491e185aee186b7, -- 학용품
  0xe18492e185a1e186a8e1848be185afe186ab, -- 학원
  0xe18492e185a1e186a8e1848be185b1, -- 학위
  0xe18492e185a1e186a8e1848ce185a1, -- 학자
  0xe18492e185a1e186a8e1848ce185a5e186b7, -- 학점
  0xe18492e185a1e186abe18480e185a8, -- 한계
  0xe18492e185a1e186abe18480e185b3e186af, -- 한글
  0xe18492e185a1e186abe18481e185a5e18487e185a5e186abe1848be185a6, -- 한꺼번에
  0xe18492e185a1e186abe18482e185a1e186bd, -- 한낮
  0xe18492e185a1e186abe18482e185aee186ab, -- 한눈
  0xe18492e185a1e186abe18483e185a9e186bce1848be185a1e186ab, -- 한동안
  0xe18492e185a1e186abe18484e185a2, -- 한때
  0xe18492e185a1e186abe18485e185a1e18489e185a1e186ab, -- 한라산
  0xe18492e185a1e186abe18486e185a1e18483e185b5, -- 한마디
  0xe18492e185a1e186abe18486e185aee186ab, -- 한문
  0xe18492e185a1e186abe18487e185a5e186ab, -- 한번
  0xe18492e185a1e186abe18487e185a9e186a8, -- 한복
  0xe18492e185a1e186abe18489e185b5e186a8, -- 한식
  0xe18492e185a1e186abe1848be185a7e18485e185b3e186b7, -- 한여름
  0xe18492e185a1e186abe1848de185a9e186a8, -- 한쪽
  0xe18492e185a1e186afe18486e185a5e18482e185b5, -- 할머니
  0xe18492e185a1e186afe1848be185a1e18487e185a5e1848ce185b5, -- 할아버지
  0xe18492e185a1e186afe1848be185b5e186ab, -- 할인
  0xe18492e185a1e186b7e18481e185a6, -- 함께
  0xe18492e185a1e186b7e18487e185aee18485e185a9, -- 함부로
  0xe18492e185a1e186b8e18480e185a7e186a8, -- 합격
  0xe18492e185a1e186b8e18485e185b5e1848ce185a5e186a8, -- 합리적
  0xe18492e185a1e186bce18480e185a9e186bc, -- 항공
  0xe18492e185a1e186bce18480e185ae, -- 항구
  0xe18492e185a1e186bce18489e185a1e186bc, -- 항상
  0xe18492e185a1e186bce1848be185b4, -- 항의
  0xe18492e185a2e18480e185a7e186af, -- 해결
  0xe18492e185a2e18480e185aee186ab, -- 해군
  0xe18492e185a2e18483e185a1e186b8, -- 해답
  0xe18492e185a2e18483e185a1e186bc, -- 해당
  0xe18492e185a2e18486e185aee186af, -- 해물
  0xe18492e185a2e18489e185a5e186a8, -- 해석
  0xe18492e185a2e18489e185a5e186af, -- 해설
  0xe18492e185a2e18489e185aee1848be185ade186a8e1848ce185a1e186bc, -- 해수욕장
  0xe18492e185a2e1848be185a1e186ab, -- 해안
  0xe18492e185a2e186a8e18489e185b5e186b7, -- 핵심
  0xe18492e185a2e186abe18483e185b3e18487e185a2e186a8, -- 핸드백
  0xe18492e185a2e186b7e18487e185a5e18480e185a5, -- 햄버거
  0xe18492e185a2e186bae18487e185a7e18780, -- 햇볕
  0xe18492e185a2e186bae18489e185a1e186af, -- 햇살
  0xe18492e185a2e186bce18483e185a9e186bc, -- 행동
  0xe18492e185a2e186bce18487e185a9e186a8, -- 행복
  0xe18492e185a2e186bce18489e185a1, -- 행사
  0xe18492e185a2e186bce1848be185aee186ab, -- 행운
  0xe18492e185a2e186bce1848be185b1, -- 행위
  0xe18492e185a3e186bce18480e185b5, -- 향기
  0xe18492e185a3e186bce18489e185a1e186bc, -- 향상
  0xe18492e185a3e186bce18489e185ae, -- 향수
  0xe18492e185a5e18485e185a1e186a8, -- 허락
  0xe18492e185a5e1848be185ade186bc, -- 허용
  0xe18492e185a6e186afe18480e185b5, -- 헬기
  0xe18492e185a7e186abe18480e185aae186ab, -- 현관
  0xe18492e185a7e186abe18480e185b3e186b7, -- 현금
  0xe18492e185a7e186abe18483e185a2, -- 현대
  0xe18492e185a7e186abe18489e185a1e186bc, -- 현상
  0xe18492e185a7e186abe18489e185b5e186af, -- 현실
  0xe18492e185a7e186abe1848ce185a1e186bc, -- 현장
  0xe18492e185a7e186abe1848ce185a2, -- 현재
  0xe18492e185a7e186abe1848ce185b5, -- 현지
  0xe18492e185a7e186afe1848be185a2e186a8, -- 혈액
  0xe18492e185a7e186b8e18485e185a7e186a8, -- 협력
  0xe18492e185a7e186bce18487e185ae, -- 형부
  0xe18492e185a7e186bce18489e185a1, -- 형사
  0xe18492e185a7e186bce18489e185ae, -- 형수
  0xe18492e185a7e186bce18489e185b5e186a8, -- 형식
  0xe18492e185a7e186bce1848ce185a6, -- 형제
  0xe18492e185a7e186bce18490e185a2, -- 형태
  0xe18492e185a7e186bce18491e185a7e186ab, -- 형편
  0xe18492e185a8e18490e185a2e186a8, -- 혜택
  0xe18492e185a9e18480e185b5e18489e185b5e186b7, -- 호기심
  0xe18492e185a9e18482e185a1e186b7, -- 호남
  0xe18492e185a9e18485e185a1e186bce1848be185b5, -- 호랑이
  0xe18492e185a9e18487e185a1e186a8, -- 호박
  0xe18492e185a9e18490e185a6e186af, -- 호텔
  0xe18492e185a9e18492e185b3e186b8, -- 호흡
  0xe18492e185a9e186a8e18489e185b5, -- 혹시
  0xe18492e185a9e186afe18485e185a9, -- 홀로
  0xe18492e185a9e186b7e18491e185a6e1848be185b5e1848ce185b5, -- 홈페이지
  0xe18492e185a9e186bce18487e185a9, -- 홍보
  0xe18492e185a9e186bce18489e185ae, -- 홍수
  0xe18492e185a9e186bce1848ee185a1, -- 홍차
  0xe18492e185aae18486e185a7e186ab, -- 화면
  0xe18492e185aae18487e185aee186ab, -- 화분
  0xe18492e185aae18489e185a1e186af, -- 화살
  0xe18492e185aae1848be185ade1848be185b5e186af, -- 화요일
  0xe18492e185aae1848ce185a1e186bc, -- 화장
  0xe18492e185aae18492e185a1e186a8, -- 화학
  0xe18492e185aae186a8e18487e185a9, -- 확보
  0xe18492e185aae186a8e1848be185b5e186ab, -- 확인
  0xe18492e185aae186a8e1848ce185a1e186bc, -- 확장
  0xe18492e185aae186a8e1848ce185a5e186bc, -- 확정
  0xe18492e185aae186abe18480e185a1e186b8, -- 환갑
  0xe18492e185aae186abe18480e185a7e186bc, -- 환경
  0xe18492e185aae186abe1848be185a7e186bc, -- 환영
  0xe18492e185aae186abe1848be185b2e186af, -- 환율
  0xe18492e185aae186abe1848ce185a1, -- 환자
  0xe18492e185aae186afe18480e185b5, -- 활기
  0xe18492e185aae186afe18483e185a9e186bc, -- 활동
  0xe18492e185aae186afe18487e185a1e186afe18492e185b5, -- 활발히
  0xe18492e185aae186afe1848be185ade186bc, -- 활용
  0xe18492e185aae186afe1848de185a1e186a8, -- 활짝
  0xe18492e185ace18480e185a7e186ab, -- 회견
  0xe18492e185ace18480e185aae186ab, -- 회관
  0xe18492e185ace18487e185a9e186a8, -- 회복
  0xe18492e185ace18489e185a2e186a8, -- 회색
  0xe18492e185ace1848be185afe186ab, -- 회원
  0xe18492e185ace1848ce185a1e186bc, -- 회장
  0xe18492e185ace1848ce185a5e186ab, -- 회전
  0xe18492e185ace186bae18489e185ae, -- 횟수
  0xe18492e185ace186bce18483e185a1e186abe18487e185a9e18483e185a9, -- 횡단보도
  0xe18492e185ade1848be185b2e186afe1848ce185a5e186a8, -- 효율적
  0xe18492e185aee18487e185a1e186ab, -- 후반
  0xe18492e185aee1848ee185aee186bae18480e185a1e18485e185ae, -- 후춧가루
  0xe18492e185aee186abe18485e185a7e186ab, -- 훈련
  0xe18492e185afe186afe1848ae185b5e186ab, -- 훨씬
  0xe18492e185b2e18489e185b5e186a8, -- 휴식
  0xe18492e185b2e1848be185b5e186af, -- 휴일
  0xe18492e185b2e186bce18482e185a2, -- 흉내
  0xe18492e185b3e18485e185b3e186b7, -- 흐름
  0xe18492e185b3e186a8e18487e185a2e186a8, -- 흑백
  0xe18492e185b3e186a8e1848be185b5e186ab, -- 흑인
  0xe18492e185b3e186abe1848ce185a5e186a8, -- 흔적
  0xe18492e185b3e186abe18492e185b5, -- 흔히
  0xe18492e185b3e186bce18486e185b5, -- 흥미
  0xe18492e185b3e186bce18487e185aee186ab, -- 흥분
  0xe18492e185b4e18480e185a9e186a8, -- 희곡
  0xe18492e185b4e18486e185a1e186bc, -- 희망
  0xe18492e185b4e18489e185a2e186bc, -- 희생
  0xe18492e185b4e186abe18489e185a2e186a8, -- 흰색
  0xe18492e185b5e186b7e18481e185a5e186ba] -- 힘껏

/-- wordlists.go:10260-12309 `KoreanWordlist`. -/
def KoreanWordlist : List GoString := unpackWords KoreanWordlistPacked

end Btc
